import Verif.Lemmas.ExpandSample
import Verif.Lemmas.SceneInside
/-
C70: the OBJ file of an exported table. C71: its MTL file. C72: its images.
-/
namespace Vpin
open Arith Scene

section
variable [Arith]

/-- the objects written for a table: the playfield and then the items, without those that have no vertex or no face -/
def exportedShapes (g : GameData) (items : List (List Block)) : List Shape :=
  (playfieldBlock g :: items.flatten).filter solid

omit [Arith] in
theorem mem_mapM_ok {α β : Type} {f : α → Res β} : ∀ {l : List α} {out : List β}, l.mapM f = .ok out →
    ∀ b ∈ out, ∃ a ∈ l, f a = .ok b := by
  intro l
  induction l with
  | nil => intro out h b hb; cases h; cases hb
  | cons x l ih =>
    intro out h b hb
    rw [List.mapM_cons] at h
    obtain ⟨y, h1, h⟩ := Res.unbind h
    obtain ⟨ys, h2, h⟩ := Res.unbind h
    cases h
    rcases List.mem_cons.1 hb with rfl | hb
    · exact ⟨x, by simp, h1⟩
    · obtain ⟨a, ha, hab⟩ := ih h2 b hb
      exact ⟨a, by simp [ha], hab⟩

theorem all_inside {Z : Zlib} {S : Stock} {fuel : Nat} {o : ObjExportOptions} {vpx : VPX} {bss : List (List Block)}
    (hS : StockInside S)
    (hp : ∀ p m, .primitive p ∈ vpx.gameitems → p.use_3d_mesh = true → p.readMesh Z = .ok (some m) →
      FacesInside m.vertices.length m.faces)
    (h : vpx.gameitems.mapM (itemBlocks Z S fuel o vpx) = .ok bss) : ∀ b ∈ bss.flatten, CornersInside b := by
  intro b hb
  obtain ⟨bs, hbs, hb⟩ := List.mem_flatten.1 hb
  obtain ⟨i, hi, he⟩ := mem_mapM_ok h bs hbs
  exact item_inside hS (fun p m hpm => hp p m (by rw [← hpm]; exact hi)) he b hb

/-- **C70**: by the rules of OBJ files the exported file says: for each shape an object of its name, with its triangles;
each of their corners is at its vertex, moved, scaled and mirrored, with its texture coordinate and its normal; the
material is that of the shape. -/
theorem C70_scene {E : ExpandEnv} {S : Stock} {fuel : Nat} {o : ObjExportOptions} {vpx : VPX} {mtlFile : Str}
    {out : ObjExport} (h : exportObj E S fuel o vpx mtlFile = .ok out) (hS : StockInside S)
    (hp : ∀ p m, .primitive p ∈ vpx.gameitems → p.use_3d_mesh = true → p.readMesh E.Z = .ok (some m) →
      FacesInside m.vertices.length m.faces) :
    ∃ items, vpx.gameitems.mapM (itemBlocks E.Z S fuel o vpx) = .ok items ∧
      (((exportedShapes vpx.gamedata items).map fun b => b.vertices.length).sum < 2 ^ 32 →
        objects out.obj = expected E.sanitize o none false (exportedShapes vpx.gamedata items) ∧ loose out.obj = []) := by
  obtain ⟨bss, h1, h2⟩ := export_scene h
  exact ⟨bss, h1, h2 _ rfl (all_inside hS hp h1)⟩

/-- **C70**: the export succeeds if the meshes of the items can be built and the images can be converted. -/
theorem C70_succeeds {E : ExpandEnv} (hU : LowerDedup E.U) {S : Stock} {fuel : Nat} {o : ObjExportOptions} {vpx : VPX}
    {mtlFile : Str} (hS : StockInside S)
    (hp : ∀ p m, .primitive p ∈ vpx.gameitems → p.use_3d_mesh = true → p.readMesh E.Z = .ok (some m) →
      FacesInside m.vertices.length m.faces)
    (himg : ∀ i ∈ vpx.images, ∀ r, contentOf E i = some r → ∃ bs, r = .ok bs) {items : List (List Block)}
    (h : vpx.gameitems.mapM (itemBlocks E.Z S fuel o vpx) = .ok items)
    (hn : ((exportedShapes vpx.gamedata items).map fun b => b.vertices.length).sum < 2 ^ 32) :
    ∃ out, exportObj E S fuel o vpx mtlFile = .ok out :=
  export_total hU himg h (all_inside hS hp h) hn

omit [Arith] in
theorem expected_smooth [Arith] {sanitize : Str → Str} {o : ObjExportOptions} : ∀ {shapes : List Shape} {m : Option Str},
    ∀ x ∈ expected sanitize o m true shapes, ∀ t ∈ x.triangles, t.smooth = true := by
  intro shapes
  induction shapes with
  | nil => intro m x hx; cases hx
  | cons b rest ih =>
    intro m x hx t ht
    rw [expected] at hx
    rcases List.mem_cons.1 hx with rfl | hx
    · obtain ⟨f, _, rfl⟩ := List.mem_map.1 ht
      rfl
    · exact ih x hx t ht

/-- **C70**: the playfield comes first, and with it smoothing is switched on for good: every triangle is smooth, also
those of primitives and of walls shown in part, which are meant not to be. -/
theorem C70_smoothing {E : ExpandEnv} {S : Stock} {fuel : Nat} {o : ObjExportOptions} {vpx : VPX} {mtlFile : Str}
    {out : ObjExport} (h : exportObj E S fuel o vpx mtlFile = .ok out) (hS : StockInside S)
    (hp : ∀ p m, .primitive p ∈ vpx.gameitems → p.use_3d_mesh = true → p.readMesh E.Z = .ok (some m) →
      FacesInside m.vertices.length m.faces)
    (hn : ∀ items, vpx.gameitems.mapM (itemBlocks E.Z S fuel o vpx) = .ok items →
      ((exportedShapes vpx.gamedata items).map fun b => b.vertices.length).sum < 2 ^ 32) :
    ∀ x ∈ objects out.obj, ∀ t ∈ x.triangles, t.smooth = true := by
  obtain ⟨items, h1, h2⟩ := C70_scene h hS hp
  rw [(h2 (hn items h1)).1]
  have e : exportedShapes vpx.gamedata items = playfieldBlock vpx.gamedata :: items.flatten.filter solid := rfl
  rw [e, expected]
  intro x hx t ht
  rcases List.mem_cons.1 hx with rfl | hx
  · obtain ⟨f, _, rfl⟩ := List.mem_map.1 ht
    rfl
  · exact expected_smooth x hx t ht

/-- **C71**, **C72**: the sections of the MTL file are those of the materials and textures used, in the order of their
first use, with the looks of the materials; and the images are there. -/
theorem C71_sections {E : ExpandEnv} {S : Stock} {fuel : Nat} {o : ObjExportOptions} {vpx : VPX} {mtlFile : Str}
    {out : ObjExport} (h : exportObj E S fuel o vpx mtlFile = .ok out) :
    ∃ items file, vpx.gameitems.mapM (itemBlocks E.Z S fuel o vpx) = .ok items ∧
      TextureFiles E o vpx.images (uses (exportedShapes vpx.gamedata items)) out.images file ∧
      sections out.mtl = ([.comment "VPin table mat file".toList],
        (kept (onceOnly E o vpx.images) [] (uses (exportedShapes vpx.gamedata items))).map
          (sectionOf E.sanitize o vpx.gamedata file)) := by
  obtain ⟨bss, s, h1, hi, -, h3, h4⟩ := export_blocks h
  refine ⟨bss, fileOf s, h1, ⟨?_, ?_, ?_, ?_⟩, ?_⟩
  · intro hx u hu t ht hh
    have := hi.files hx u hu t ht
    rw [hh] at this
    exact Option.isSome_iff_exists.1 this
  · intro t f hf
    obtain ⟨i, bs, a, b, c, suffix, d⟩ := hi.img.found t f hf
    exact ⟨i, bs, suffix, a, b, by rw [h4]; exact c, d⟩
  · rw [h4]
    intro p hp
    obtain ⟨t, ht⟩ := hi.img.needed p hp
    obtain ⟨hx, u, hu, hut⟩ := hi.only t p.1 ht
    exact ⟨hx, u, hu, t, hut, ht⟩
  · rw [h4]
    have := hi.img.distinct
    rw [hi.img.used] at this
    exact (List.reverse_perm _).nodup_iff.1 this
  · rw [h3, hi.sections]
    rfl

omit [Arith] in
theorem file_empty {E : ExpandEnv} {o : ObjExportOptions} {images : List ImageData} {us : List Use}
    {files : List (Str × Bytes)} {file : Str → Option Str} (h : TextureFiles E o images us files file) :
    file [] = none := by
  cases hf : file [] with
  | none => rfl
  | some f =>
    obtain ⟨i, bs, sfx, a, -⟩ := h.content [] f hf
    simp [imageOf] at a

theorem sectionOf_key {E : ExpandEnv} {o : ObjExportOptions} {images : List ImageData} {us : List Use}
    {files : List (Str × Bytes)} {file : Str → Option Str} (h : TextureFiles E o images us files file) (g : GameData)
    {u x : Use} (hk : key u = key x) : sectionOf E.sanitize o g file u = sectionOf E.sanitize o g file x := by
  obtain ⟨m, t⟩ := u
  obtain ⟨m', t'⟩ := x
  have h1 : m = m' := congrArg Prod.fst hk
  have h2 : t.getD [] = t'.getD [] := congrArg Prod.snd hk
  have he := file_empty h
  subst h1
  have e1 : t.bind file = t'.bind file := by
    cases t with
    | none =>
      cases t' with
      | none => rfl
      | some t' => simp only [Option.getD_none, Option.getD_some] at h2; subst h2; exact he.symm
    | some t =>
      cases t' with
      | none => simp only [Option.getD_none, Option.getD_some] at h2; subst h2; exact he
      | some t' => simp only [Option.getD_some] at h2; subst h2; rfl
  have e2 : mtlName E.sanitize o.extract_textures m t = mtlName E.sanitize o.extract_textures m t' := by
    unfold mtlName
    congr 1
    cases t with
    | none =>
      cases t' with
      | none => rfl
      | some t' => simp only [Option.getD_none, Option.getD_some] at h2; subst h2; rfl
    | some t =>
      cases t' with
      | none => simp only [Option.getD_none, Option.getD_some] at h2; subst h2; rfl
      | some t' => simp only [Option.getD_some] at h2; subst h2; rfl
  unfold sectionOf
  dsimp only
  rw [e1, e2]

/-- **C71**: every use has its section, and every section comes from a use. -/
theorem C71_defined {E : ExpandEnv} {S : Stock} {fuel : Nat} {o : ObjExportOptions} {vpx : VPX} {mtlFile : Str}
    {out : ObjExport} (h : exportObj E S fuel o vpx mtlFile = .ok out) :
    ∃ items file, vpx.gameitems.mapM (itemBlocks E.Z S fuel o vpx) = .ok items ∧
      TextureFiles E o vpx.images (uses (exportedShapes vpx.gamedata items)) out.images file ∧
      (∀ u ∈ uses (exportedShapes vpx.gamedata items), sectionOf E.sanitize o vpx.gamedata file u ∈ materials out.mtl) ∧
      ∀ x ∈ materials out.mtl, ∃ u ∈ uses (exportedShapes vpx.gamedata items),
        x = sectionOf E.sanitize o vpx.gamedata file u := by
  obtain ⟨items, file, h1, h2, h3⟩ := C71_sections h
  refine ⟨items, file, h1, h2, ?_, ?_⟩
  · intro u hu
    rcases kept_covers (once := onceOnly E o vpx.images) (before := []) hu with ⟨x, hx, hk⟩ | ⟨x, hx, _⟩
    · unfold materials
      rw [h3, ← sectionOf_key h2 _ hk]
      exact List.mem_map_of_mem hx
    · cases hx
  · intro x hx
    unfold materials at hx
    rw [h3] at hx
    obtain ⟨u, hu, rfl⟩ := List.mem_map.1 hx
    exact ⟨u, kept_mem hu, rfl⟩

/-- **C71**: if no two different uses go by the same name, the section found by a name is the right one. -/
theorem C71_unambiguous {E : ExpandEnv} {S : Stock} {fuel : Nat} {o : ObjExportOptions} {vpx : VPX} {mtlFile : Str}
    {out : ObjExport} (h : exportObj E S fuel o vpx mtlFile = .ok out) :
    ∃ items file, vpx.gameitems.mapM (itemBlocks E.Z S fuel o vpx) = .ok items ∧
      TextureFiles E o vpx.images (uses (exportedShapes vpx.gamedata items)) out.images file ∧
      ((∀ u ∈ uses (exportedShapes vpx.gamedata items), ∀ v ∈ uses (exportedShapes vpx.gamedata items),
        mtlName E.sanitize o.extract_textures u.1 u.2 = mtlName E.sanitize o.extract_textures v.1 v.2 → key u = key v) →
      ∀ u ∈ uses (exportedShapes vpx.gamedata items), ∀ x ∈ materials out.mtl,
        x.1 = mtlName E.sanitize o.extract_textures u.1 u.2 → x = sectionOf E.sanitize o vpx.gamedata file u) := by
  obtain ⟨items, file, h1, h2, -, h3⟩ := C71_defined h
  refine ⟨items, file, h1, h2, ?_⟩
  intro hd u hu x hx hn
  obtain ⟨v, hv, rfl⟩ := h3 x hx
  exact sectionOf_key h2 _ (hd v hv u hu hn)

/-- **C71**: with `dedup_mtl_blocks` no material with the same texture has two sections. -/
theorem C71_once {E : ExpandEnv} {S : Stock} {fuel : Nat} {o : ObjExportOptions} {vpx : VPX} {mtlFile : Str}
    {out : ObjExport} (h : exportObj E S fuel o vpx mtlFile = .ok out) (hd : o.dedup_mtl_blocks = true) :
    ∃ items file, ∃ us : List Use, vpx.gameitems.mapM (itemBlocks E.Z S fuel o vpx) = .ok items ∧
      TextureFiles E o vpx.images (uses (exportedShapes vpx.gamedata items)) out.images file ∧
      us.Sublist (uses (exportedShapes vpx.gamedata items)) ∧ (us.map key).Nodup ∧
      materials out.mtl = us.map (sectionOf E.sanitize o vpx.gamedata file) := by
  obtain ⟨items, file, h1, h2, h3⟩ := C71_sections h
  have ho : ∀ u, onceOnly E o vpx.images u = true := by intro u; simp [onceOnly, hd]
  refine ⟨items, file, _, h1, h2, kept_sublist, (kept_distinct ho _ []).1, ?_⟩
  unfold materials
  rw [h3]

/-- **C71**: without it, and without textures, every use has its own section, as Visual Pinball writes them. -/
theorem C71_each {E : ExpandEnv} {S : Stock} {fuel : Nat} {o : ObjExportOptions} {vpx : VPX} {mtlFile : Str}
    {out : ObjExport} (h : exportObj E S fuel o vpx mtlFile = .ok out) (hd : o.dedup_mtl_blocks = false)
    (hx : o.extract_textures = false) :
    ∃ items, vpx.gameitems.mapM (itemBlocks E.Z S fuel o vpx) = .ok items ∧
      materials out.mtl = (uses (exportedShapes vpx.gamedata items)).map fun u =>
        (u.1.filter (· != ' '), lookLines (lookOf vpx.gamedata u.1) none) := by
  obtain ⟨items, file, h1, -, h3⟩ := C71_sections h
  have ho : ∀ u, onceOnly E o vpx.images u = false := by intro u; simp [onceOnly, hd, hx]
  refine ⟨items, h1, ?_⟩
  unfold materials
  rw [h3, kept_all ho]
  refine List.map_congr_left fun u _ => ?_
  unfold sectionOf mtlName
  rw [hx]
  simp

/-- **C72**: the names in the OBJ file are those of the MTL file: the material of every triangle of a shape with a
material has a section. -/
theorem C72_names {E : ExpandEnv} {S : Stock} {fuel : Nat} {o : ObjExportOptions} {vpx : VPX} {mtlFile : Str}
    {out : ObjExport} (h : exportObj E S fuel o vpx mtlFile = .ok out) (hS : StockInside S)
    (hp : ∀ p m, .primitive p ∈ vpx.gameitems → p.use_3d_mesh = true → p.readMesh E.Z = .ok (some m) →
      FacesInside m.vertices.length m.faces)
    (hn : ∀ items, vpx.gameitems.mapM (itemBlocks E.Z S fuel o vpx) = .ok items →
      ((exportedShapes vpx.gamedata items).map fun b => b.vertices.length).sum < 2 ^ 32) :
    ∀ x ∈ objects out.obj, ∀ t ∈ x.triangles, ∃ n, t.material = some n ∧ ∃ s ∈ materials out.mtl, s.1 = n := by
  obtain ⟨items, h1, h2⟩ := C70_scene h hS hp
  obtain ⟨items', file, h1', -, h4, -⟩ := C71_defined h
  rw [h1] at h1'
  cases h1'
  rw [(h2 (hn items h1)).1]
  have key : ∀ (shapes : List Shape) (m : Option Str) (s : Bool),
      (∀ u ∈ uses shapes, sectionOf E.sanitize o vpx.gamedata file u ∈ materials out.mtl) →
      (∀ n, m = some n → ∃ s ∈ materials out.mtl, s.1 = n) →
      (m = none → ∀ b rest, shapes = b :: rest → b.material ≠ none) →
      ∀ x ∈ expected E.sanitize o m s shapes, ∀ t ∈ x.triangles,
        ∃ n, t.material = some n ∧ ∃ s ∈ materials out.mtl, s.1 = n := by
    intro shapes
    induction shapes with
    | nil => intro m s _ _ _ x hx; cases hx
    | cons b rest ih =>
      intro m s hu hm hb x hx t ht
      rw [expected] at hx
      have hrest : ∀ u ∈ uses rest, sectionOf E.sanitize o vpx.gamedata file u ∈ materials out.mtl := by
        intro u hur
        refine hu u ?_
        unfold uses at hur ⊢
        rw [List.filterMap_cons]
        split
        · exact hur
        · exact List.mem_cons_of_mem _ hur
      have hm' : ∃ n, (match b.material with
          | some x => some (mtlName E.sanitize o.extract_textures x b.texture)
          | none => m) = some n ∧ ∃ s ∈ materials out.mtl, s.1 = n := by
        cases hbm : b.material with
        | some y =>
          refine ⟨_, rfl, sectionOf E.sanitize o vpx.gamedata file (y, b.texture), ?_, rfl⟩
          refine hu _ ?_
          unfold uses
          rw [List.filterMap_cons, hbm]
          simp
        | none =>
          cases hmm : m with
          | some n => exact ⟨n, rfl, hm n hmm⟩
          | none => exact absurd hbm (hb hmm b rest rfl)
      obtain ⟨n, hn1, hn2⟩ := hm'
      rcases List.mem_cons.1 hx with rfl | hx
      · obtain ⟨f, _, rfl⟩ := List.mem_map.1 ht
        exact ⟨n, hn1, hn2⟩
      · have hx' : x ∈ expected E.sanitize o (some n) (s || b.smoothing) rest := by
          rw [← hn1]; exact hx
        exact ih (some n) _ hrest (fun n' hn' => by cases hn'; exact hn2) (fun h => by cases h) x hx' t ht
  refine key _ none false h4 (fun n hn => by cases hn) ?_
  intro _ b rest hbr
  have e : exportedShapes vpx.gamedata items = playfieldBlock vpx.gamedata :: items.flatten.filter solid := rfl
  rw [e] at hbr
  cases hbr
  simp [playfieldBlock]

/-- **C72**: with textures every image a shape uses is written once per spelling of its name, with its content and under
a name no other image has; without textures no image is written. The sections of the MTL file refer to these files. -/
theorem C72_images {E : ExpandEnv} {S : Stock} {fuel : Nat} {o : ObjExportOptions} {vpx : VPX} {mtlFile : Str}
    {out : ObjExport} (h : exportObj E S fuel o vpx mtlFile = .ok out) :
    (o.extract_textures = false → out.images = []) ∧
    ∃ items file, vpx.gameitems.mapM (itemBlocks E.Z S fuel o vpx) = .ok items ∧
      TextureFiles E o vpx.images (uses (exportedShapes vpx.gamedata items)) out.images file ∧
      ∀ x ∈ materials out.mtl, ∀ path, .mapKd path ∈ x.2 →
        ∃ f bs, path = "images/".toList ++ f ∧ (f, bs) ∈ out.images := by
  obtain ⟨items, file, h1, h2, -, h3⟩ := C71_defined h
  refine ⟨?_, items, file, h1, h2, ?_⟩
  · intro hx
    cases hi : out.images with
    | nil => rfl
    | cons a l =>
      have := (h2.needed a (by rw [hi]; exact List.mem_cons_self)).1
      rw [hx] at this
      cases this
  · intro x hx path hp
    obtain ⟨u, -, rfl⟩ := h3 x hx
    have key : ∀ (l : Option Look) (map : Option Str), .mapKd path ∈ lookLines l map → map = some path := by
      intro l map hm
      cases l <;> cases map <;> simp [lookLines] at hm ⊢ <;> exact hm.symm
    have hm := key _ _ hp
    split at hm
    · rcases hu : u.2 with _ | t
      · rw [hu] at hm; cases hm
      · rw [hu] at hm
        cases hf : file t with
        | none =>
          have hm' : (file t).map ("images/".toList ++ ·) = some path := hm
          rw [hf] at hm'; cases hm'
        | some f =>
          have hm' : (file t).map ("images/".toList ++ ·) = some path := hm
          rw [hf] at hm'
          obtain ⟨i, bs, sfx, -, -, hmem, -, -⟩ := h2.content t f hf
          exact ⟨f, bs, (Option.some.inj hm').symm, hmem⟩
    · cases hm

end

/-! ### Concrete cases -/

theorem ascii_lowerDedup : LowerDedup asciiUnicode := by
  intro base ext i j h
  have hid : ∀ k, (decimal k).map asciiLower = decimal k := by
    intro k
    conv => rhs; rw [← List.map_id (decimal k)]
    refine List.map_congr_left ?_
    intro c hc
    exact asciiLower_id (decimalF_digits _ _ c hc).2
  have e : ∀ k, asciiUnicode.lower (fileName (base ++ "_dedup".toList ++ decimal k) ext) =
      (base ++ "_dedup".toList).map asciiLower ++ decimal k ++ ('.' :: ext).map asciiLower := by
    intro k
    show (fileName _ _).map asciiLower = _
    unfold fileName
    rw [List.map_append, List.map_append, List.map_append (l₁ := base ++ "_dedup".toList), hid]
    simp
  rw [e, e] at h
  exact decimal_inj (List.append_cancel_left (List.append_cancel_right h))

section
attribute [local instance] ieeeExact

/-- meshes for examples: spinners have a plate of one triangle, the others have nothing -/
def exampleStock : Stock where
  bumper _ := ⟨none, none, none, none⟩
  plunger _ := ⟨none, none, none, none, none⟩
  flipper _ := none
  gate _ := none
  kicker _ := (none, none)
  spinner _ := (none, ⟨[⟨0, 0, 0, 0, 0, 0, 0, 0⟩, ⟨f32One, 0, 0, 0, 0, 0, 0, 0⟩, ⟨0, f32One, 0, 0, 0, 0, 0, 0⟩], [⟨0, 1, 2⟩]⟩)
  hitTarget _ := none
  trigger _ := none

theorem exampleStock_inside : StockInside exampleStock := by
  refine ⟨?_, ?_, ?_, ?_, ?_, ?_, ?_, ?_⟩
  · intro b m hm; simp [exampleStock] at hm
  · intro b m hm; simp [exampleStock] at hm
  · intro f c base rubber h; cases h
  · intro f c base h; cases h
  · intro b m hm; simp [exampleStock] at hm
  · intro s
    refine ⟨?_, fun m h => by cases h⟩
    intro f hf i hi
    simp only [exampleStock, List.mem_cons, List.not_mem_nil, or_false] at hf
    subst hf
    simp only [List.mem_cons, List.not_mem_nil, or_false] at hi
    simp only [exampleStock, List.length_cons, List.length_nil]
    omega
  · intro h m hm; cases hm
  · intro h m hm; cases hm

/-- two primitives with three sides and a spinner; two images of the same file name -/
def sceneTable : VPX :=
  { expandTable with
    gamedata := { GameData.default with
      name := "Table".toList, playfield_material := "a b".toList, image := "Bitmap".toList,
      materials := some [{ Material.default with name := "A B".toList }, { Material.default with name := "ab".toList }] }
    gameitems :=
      [.primitive { Primitive.default with
         name := "P".toList, sides := 3, material := "ab".toList, image := "playfield é".toList },
       .spinner { Spinner.default with name := "S".toList },
       .primitive { Primitive.default with
         name := "Q".toList, sides := 3, material := "a b".toList, image := "BITMAP".toList }]
    images := expandImages }

def sceneOut : Res ObjExport := exportObj sampleExpand exampleStock 10 .default sceneTable "t.mtl".toList

example : (sceneOut.toOption.map fun out => (objects out.obj).map fun x => (x.name, x.triangles.length)) =
    some [("Table".toList, 2), ("P".toList, 12), ("SPlate".toList, 1), ("Q".toList, 12)] := by decide +kernel

example : (sceneOut.toOption.map fun out => (materials out.mtl).map (·.1)) =
    some ["ab__Bitmap".toList, "ab__playfield é".toList, "ab__BITMAP".toList] := by decide +kernel

/-- an image named in another case is written twice -/
example : (sceneOut.toOption.map fun out => out.images.map (·.1)) =
    some ["Bitmap.bmp".toList, "Playfield é.png".toList, "Bitmap_dedup1.bmp".toList] := by decide +kernel

theorem sceneTable_own : ∀ p m, .primitive p ∈ sceneTable.gameitems → p.use_3d_mesh = true →
    p.readMesh sampleExpand.Z = .ok (some m) → FacesInside m.vertices.length m.faces := by
  intro p m hp hu
  simp only [sceneTable, List.mem_cons, List.not_mem_nil, or_false] at hp
  rcases hp with hp | hp | hp
  · cases hp; cases hu
  · cases hp
  · cases hp; cases hu

/-- the conditions of C70, C71 and C72 are met -/
example : StockInside exampleStock ∧ LowerDedup sampleExpand.U ∧
    (∃ out, exportObj sampleExpand exampleStock 10 .default sceneTable "t.mtl".toList = .ok out) ∧
    ∃ items, sceneTable.gameitems.mapM (itemBlocks sampleExpand.Z exampleStock 10 .default sceneTable) = .ok items ∧
      ((exportedShapes sceneTable.gamedata items).map fun b => b.vertices.length).sum < 2 ^ 32 := by
  have h1 : (sceneTable.gameitems.mapM
      (itemBlocks sampleExpand.Z exampleStock 10 .default sceneTable)).toOption.any (fun items =>
        ((exportedShapes sceneTable.gamedata items).map fun b => b.vertices.length).sum < 2 ^ 32) = true := by
    decide +kernel
  cases h : sceneTable.gameitems.mapM (itemBlocks sampleExpand.Z exampleStock 10 .default sceneTable) with
  | error e => rw [h] at h1; cases h1
  | ok items =>
    rw [h] at h1
    have hn := of_decide_eq_true h1
    refine ⟨exampleStock_inside, ascii_lowerDedup, ?_, items, rfl, hn⟩
    refine C70_succeeds ascii_lowerDedup exampleStock_inside sceneTable_own ?_ h hn
    have : sceneTable.images.all (fun i => (contentOf sampleExpand i).all fun r => r.toOption.isSome) = true := by
      decide +kernel
    intro i hi r hr
    have h3 := List.all_eq_true.1 this i hi
    rw [hr] at h3
    cases r with
    | ok bs => exact ⟨bs, rfl⟩
    | error e => cases h3

/-! ### What does not hold -/

/-- An object without a material of its own is not in the material of its item: it has that of whatever came before,
here of the primitive before the spinner. The material of the spinner is nowhere in the file. -/
theorem C70_inherited_material_counterexample :
    Spinner.default.material = [] ∧
    (sceneOut.toOption.map fun out => ((objects out.obj).filter fun x => x.name == "SPlate".toList).map fun x =>
      x.triangles.map (·.material)) = some [[some "ab__playfield é".toList]] := by decide +kernel

/-- a primitive whose only face uses vertices it does not have -/
def strayPrimitive : Primitive :=
  { (Primitive.default.setMesh plainZlib 1 sampleVertex.bytes [⟨0, 1, 2⟩]) with name := "stray".toList, use_3d_mesh := true }

/-- If the faces of a primitive use vertices it does not have, they are not left out and the export does not fail: in
the file the triangle goes to vertices of the next object. -/
theorem C70_stray_corner_counterexample :
    let t : VPX := { sceneTable with gameitems := .primitive strayPrimitive :: sceneTable.gameitems }
    ((exportObj sampleExpand exampleStock 10 .strict t []).toOption.map fun out =>
      ((objects out.obj).drop 1).head?.map fun x => (x.name, x.triangles.map fun t =>
        t.corners.map fun c => c.any fun c => ((objects out.obj).drop 2).head?.any fun y =>
          y.triangles.any fun u => u.corners.contains (some c))) =
      some (some ("stray".toList, [[true, true, false]])) := by decide +kernel

/-- Two materials whose names differ in spaces only go by one name: here the sections of both are there, with different
colours. -/
theorem C71_collision_counterexample :
    let red : Color := ⟨0, 255, 0, 0⟩
    let t : VPX := { sceneTable with
      gamedata := { sceneTable.gamedata with
        materials := some [{ Material.default with name := "a b".toList },
          { Material.default with name := "ab".toList, base_color := red }] } }
    ((exportObj sampleExpand exampleStock 10 .strict t []).toOption.map fun out =>
      (materials out.mtl).map fun x => (x.1, x.2.contains (.kd f32One 0 0))) =
      some [("ab".toList, false), ("ab".toList, true), ("ab".toList, false)] := by decide +kernel

/-- The factors of the units are those computed in `f32`: `25.4 * 1.0625 / 50.0`, and that over 10.0 and over
1000.0. -/
example : let mm := Arith.div (Arith.mul (0x41cb3333 : F32) 0x3f880000) 0x42480000
    ExportUnits.mm.scale = mm ∧ ExportUnits.cm.scale = Arith.div mm 0x41200000 ∧
      ExportUnits.m.scale = Arith.div mm 0x447a0000 := by decide +kernel

end
end Vpin
