import Verif.Lemmas.MeshList
import Verif.Lemmas.Res
import Verif.Spec.Scene
/-
The objects of an exported OBJ file.
-/
namespace Vpin
open Scene

theorem Res.ite_ok {α : Type} {c : Prop} [Decidable c] {x y : Res α} {a : α} (h : (if c then x else y) = .ok a) :
    (c ∧ x = .ok a) ∨ (¬c ∧ y = .ok a) := by
  by_cases hc : c
  · rw [if_pos hc] at h; exact .inl ⟨hc, h⟩
  · rw [if_neg hc] at h; exact .inr ⟨hc, h⟩

/-! ### Materials and images do not change the OBJ file -/

theorem sanitizedImageFilename_spec {E : ExpandEnv} {name ext n : Str} {s s' : ObjState}
    (h : sanitizedImageFilename E name ext s = .ok (n, s')) :
    s'.obj = s.obj ∧ s'.offset = s.offset ∧ s'.mtl = s.mtl ∧ s'.seen = s.seen ∧ s'.images = s.images ∧
      s'.filenames = s.filenames ∧ s'.used = E.U.lower n :: s.used := by
  unfold sanitizedImageFilename at h
  obtain ⟨⟨n1, c⟩, h1, h⟩ := Res.unbind h
  cases h
  exact ⟨rfl, rfl, rfl, rfl, rfl, rfl, rfl⟩

theorem ensureImageWritten_frame {E : ExpandEnv} {images : List ImageData} {name : Str} {s s' : ObjState} {r : Option Str}
    (h : ensureImageWritten E images name s = .ok (r, s')) :
    s'.obj = s.obj ∧ s'.offset = s.offset ∧ s'.mtl = s.mtl ∧ s'.seen = s.seen := by
  unfold ensureImageWritten at h
  split at h
  · cases h; exact ⟨rfl, rfl, rfl, rfl⟩
  · split at h
    · cases h; exact ⟨rfl, rfl, rfl, rfl⟩
    · split at h
      · cases h; exact ⟨rfl, rfl, rfl, rfl⟩
      · obtain ⟨⟨f, s1⟩, h1, h⟩ := Res.unbind h
        obtain ⟨bs, h2, h⟩ := Res.unbind h
        cases h
        obtain ⟨a, b, c, d, _⟩ := sanitizedImageFilename_spec h1
        exact ⟨a, b, c, d⟩

theorem mtlBlockName_eq (E : ExpandEnv) (x : Bool) (m : Str) (t : Option Str) :
    mtlBlockName E x m t = mtlName E.sanitize x m t := by
  unfold mtlBlockName mtlName materialName
  cases t with
  | none => cases x <;> simp
  | some t =>
    cases x with
    | false => simp
    | true =>
      cases t with
      | nil => simp
      | cons c cs => simp [List.append_assoc]

variable [Arith]

theorem emitMtlBlock_frame {E : ExpandEnv} {o : ObjExportOptions} {vpx : VPX} {m : Str} {t : Option Str}
    {s s' : ObjState} {n : Str} (h : emitMtlBlock E o vpx m t s = .ok (n, s')) :
    n = mtlName E.sanitize o.extract_textures m t ∧ s'.obj = s.obj ∧ s'.offset = s.offset := by
  unfold emitMtlBlock at h
  obtain ⟨⟨map, s1⟩, h1, h⟩ := Res.unbind h
  have hf : s1.obj = s.obj ∧ s1.offset = s.offset := by
    split at h1
    · exact ⟨(ensureImageWritten_frame h1).1, (ensureImageWritten_frame h1).2.1⟩
    · cases h1; exact ⟨rfl, rfl⟩
  dsimp only at h
  rcases Res.ite_ok h with ⟨_, h⟩ | ⟨_, h⟩
  · cases h; exact ⟨mtlBlockName_eq .., hf.1, hf.2⟩
  · cases h; exact ⟨mtlBlockName_eq .., hf.1, hf.2⟩

/-! ### The lines of a block -/

def cornerOf (off : Nat) (i : Int) : Nat × Nat × Nat := (i.toNat + 1 + off, i.toNat + 1 + off, i.toNat + 1 + off)

def faceLines (off : Nat) (b : Block) : List SceneLine :=
  b.faces.map fun f => .f (cornerOf off f.i2) (cornerOf off f.i1) (cornerOf off f.i0)

def materialLines (E : ExpandEnv) (o : ObjExportOptions) (b : Block) : List SceneLine :=
  match b.material with
  | none => []
  | some m => [.usemtl (mtlName E.sanitize o.extract_textures m b.texture)]

def vertexLines (o : ObjExportOptions) (b : Block) : List SceneLine :=
  b.vertices.map (positionLine o.units.scale b.translation) ++ b.vertices.map texcoordLine ++ b.vertices.map normalLine

def blockLines (E : ExpandEnv) (o : ObjExportOptions) (off : Nat) (b : Block) : List SceneLine :=
  .object b.name :: (vertexLines o b ++ materialLines E o b ++ (if b.smoothing then [.smooth] else []) ++ faceLines off b)

omit [Arith] in
theorem cornerNumber_eq {off : Nat} {i : Int} {n : Nat} (h0 : 0 ≤ i) (h1 : i < n) (h2 : off + n < 2 ^ 32) :
    cornerNumber off i = .ok (cornerOf off i) := by
  have h : asU32 i = i.toNat := by
    unfold asU32
    rw [Int.emod_eq_of_lt h0 (by omega)]
  unfold cornerNumber checkedU32
  rw [h, if_pos (by omega)]
  rfl

omit [Arith] in
theorem faces_eq {off : Nat} {b : Block} (hr : CornersInside b) (h : off + b.vertices.length < 2 ^ 32) :
    b.faces.mapM (faceLine off) = .ok (faceLines off b) := by
  refine mapM_all_ok fun f hf => ?_
  unfold faceLine
  have h0 := hr f hf f.i0 (by simp)
  have h1 := hr f hf f.i1 (by simp)
  have h2 := hr f hf f.i2 (by simp)
  rw [Res.thenOk (cornerNumber_eq h2.1 h2.2 h), Res.thenOk (cornerNumber_eq h1.1 h1.2 h),
    Res.thenOk (cornerNumber_eq h0.1 h0.2 h)]
  rfl

theorem useMaterial_frame {E : ExpandEnv} {o : ObjExportOptions} {vpx : VPX} {b : Block} {s s' : ObjState}
    (h : useMaterial E o vpx b s = .ok s') : s'.obj = s.obj ++ materialLines E o b ∧ s'.offset = s.offset := by
  unfold useMaterial at h
  unfold materialLines
  cases hm : b.material with
  | none => rw [hm] at h; cases h; simp
  | some m =>
    rw [hm] at h
    obtain ⟨⟨n, s1⟩, h1, h⟩ := Res.unbind h
    cases h
    obtain ⟨rfl, h2, h3⟩ := emitMtlBlock_frame h1
    exact ⟨by simp [h2], h3⟩

theorem writeBlock_hollow {E : ExpandEnv} {o : ObjExportOptions} {vpx : VPX} {b : Block} {s : ObjState}
    (hb : solid b = false) : writeBlock E o vpx s b = .ok s := by
  unfold writeBlock
  unfold solid at hb
  refine if_pos ?_
  cases h1 : b.vertices.isEmpty <;> cases h2 : b.faces.isEmpty <;> simp_all

theorem writeBlock_spec {E : ExpandEnv} {o : ObjExportOptions} {vpx : VPX} {b : Block} {s s' : ObjState}
    (hb : solid b = true) (hr : CornersInside b) (hn : s.offset + b.vertices.length < 2 ^ 32)
    (h : writeBlock E o vpx s b = .ok s') :
    s'.obj = s.obj ++ blockLines E o s.offset b ∧ s'.offset = s.offset + b.vertices.length := by
  unfold writeBlock at h
  unfold solid at hb
  rcases Res.ite_ok h with ⟨h0, _⟩ | ⟨_, h⟩
  · cases h1 : b.vertices.isEmpty <;> cases h2 : b.faces.isEmpty <;> simp_all
  · dsimp only at h
    obtain ⟨s1, h1, h⟩ := Res.unbind h
    obtain ⟨h2, h3⟩ := useMaterial_frame h1
    dsimp only at h2 h3
    have hs : (if b.smoothing = true then { s1 with obj := s1.obj ++ [.smooth] } else s1).offset = s.offset := by
      split <;> exact h3
    rw [hs, Res.thenOk (faces_eq hr hn)] at h
    cases h
    refine ⟨?_, ?_⟩
    · show (if b.smoothing = true then { s1 with obj := s1.obj ++ [.smooth] } else s1).obj ++ _ = _
      unfold blockLines vertexLines
      cases b.smoothing <;> simp [h2]
    · show min (2 ^ 32 - 1) _ = _
      rw [Nat.mod_eq_of_lt (by omega)]
      omega

/-- the vertices of shapes -/
def vertexCount (bs : List Block) : Nat := (bs.map fun b => b.vertices.length).sum

def allLines (E : ExpandEnv) (o : ObjExportOptions) : Nat → List Block → List SceneLine
  | _, [] => []
  | off, b :: rest => blockLines E o off b ++ allLines E o (off + b.vertices.length) rest

theorem writeBlocks_spec {E : ExpandEnv} {o : ObjExportOptions} {vpx : VPX} : ∀ {bs : List Block} {s s' : ObjState},
    (∀ b ∈ bs, CornersInside b) → s.offset + vertexCount (bs.filter solid) < 2 ^ 32 →
    bs.foldlM (writeBlock E o vpx) s = .ok s' →
    s'.obj = s.obj ++ allLines E o s.offset (bs.filter solid) ∧
      s'.offset = s.offset + vertexCount (bs.filter solid) := by
  intro bs
  induction bs with
  | nil => intro s s' _ _ h; cases h; simp [allLines, vertexCount]
  | cons b bs ih =>
    intro s s' hr hn h
    rw [List.foldlM_cons] at h
    obtain ⟨s1, h1, h⟩ := Res.unbind h
    cases hb : solid b with
    | false =>
      rw [writeBlock_hollow hb] at h1
      cases h1
      rw [List.filter_cons_of_neg (by simp [hb])] at hn ⊢
      exact ih (fun x hx => hr x (by simp [hx])) hn h
    | true =>
      rw [List.filter_cons_of_pos hb] at hn ⊢
      have hc : vertexCount (b :: bs.filter solid) = b.vertices.length + vertexCount (bs.filter solid) := by
        simp [vertexCount]
      rw [hc] at hn ⊢
      obtain ⟨h2, h3⟩ := writeBlock_spec hb (hr b (by simp)) (by omega) h1
      obtain ⟨h4, h5⟩ := ih (fun x hx => hr x (by simp [hx])) (by omega) h
      refine ⟨?_, by omega⟩
      rw [h4, h2, h3]
      simp [allLines]

/-- the blocks of the items, one after the other -/
theorem writeItems_blocks {E : ExpandEnv} {S : Stock} {fuel : Nat} {o : ObjExportOptions} {vpx : VPX} :
    ∀ {items : List GameItemEnum} {s s' : ObjState}, items.foldlM (writeItem E S fuel o vpx) s = .ok s' →
    ∃ bss, items.mapM (itemBlocks E.Z S fuel o vpx) = .ok bss ∧ bss.flatten.foldlM (writeBlock E o vpx) s = .ok s' := by
  intro items
  induction items with
  | nil => intro s s' h; cases h; exact ⟨[], rfl, rfl⟩
  | cons i items ih =>
    intro s s' h
    rw [List.foldlM_cons] at h
    obtain ⟨s1, h1, h⟩ := Res.unbind h
    obtain ⟨bs, h2, h1⟩ := Res.unbind h1
    obtain ⟨bss, h3, h4⟩ := ih h
    refine ⟨bs :: bss, ?_, ?_⟩
    · rw [List.mapM_cons, Res.thenOk h2, Res.thenOk h3]; rfl
    · rw [List.flatten_cons, List.foldlM_append, Res.thenOk h1]; exact h4

/-! ### Reading the lines -/

section
omit [Arith]

theorem positions_append (a b : List SceneLine) : positions (a ++ b) = positions a ++ positions b := by
  simp [positions]

theorem texcoords_append (a b : List SceneLine) : texcoords (a ++ b) = texcoords a ++ texcoords b := by
  simp [texcoords]

theorem normals_append (a b : List SceneLine) : normals (a ++ b) = normals a ++ normals b := by
  simp [normals]

theorem positions_skip {ls : List SceneLine} (h : ∀ l ∈ ls, ∀ x y z, l ≠ .v x y z) : positions ls = [] := by
  unfold positions
  rw [List.filterMap_eq_nil_iff]
  intro l hl
  cases l with
  | v x y z => exact absurd rfl (h _ hl x y z)
  | _ => rfl

theorem texcoords_skip {ls : List SceneLine} (h : ∀ l ∈ ls, ∀ x y, l ≠ .vt x y) : texcoords ls = [] := by
  unfold texcoords
  rw [List.filterMap_eq_nil_iff]
  intro l hl
  cases l with
  | vt x y => exact absurd rfl (h _ hl x y)
  | _ => rfl

theorem normals_skip {ls : List SceneLine} (h : ∀ l ∈ ls, ∀ x y z, l ≠ .vn x y z) : normals ls = [] := by
  unfold normals
  rw [List.filterMap_eq_nil_iff]
  intro l hl
  cases l with
  | vn x y z => exact absurd rfl (h _ hl x y z)
  | _ => rfl

/-- a line that only gives a position, a texture coordinate or a normal -/
def isData : SceneLine → Bool
  | .v .. => true
  | .vt .. => true
  | .vn .. => true
  | _ => false

theorem split_data {P T N m s} : ∀ {ls rest : List SceneLine}, (∀ l ∈ ls, isData l = true) →
    split P T N m s (ls ++ rest) = split P T N m s rest := by
  intro ls rest
  induction ls with
  | nil => intro _; rfl
  | cons l ls ih =>
    intro h
    have hl := h l (by simp)
    have := ih fun x hx => h x (by simp [hx])
    cases l with
    | v => exact this
    | vt => exact this
    | vn => exact this
    | _ => simp [isData] at hl

theorem split_faces {P T N m s} : ∀ {fs : List Face} {off : Nat} {rest : List SceneLine},
    split P T N m s (fs.map (fun f => .f (cornerOf off f.i2) (cornerOf off f.i1) (cornerOf off f.i0)) ++ rest) =
      ((fs.map fun f => ⟨[f.i2, f.i1, f.i0].map fun i => resolve P T N (cornerOf off i), m, s⟩) ++
        (split P T N m s rest).1, (split P T N m s rest).2) := by
  intro fs off rest
  induction fs with
  | nil => rfl
  | cons f fs ih =>
    rw [List.map_cons, List.cons_append]
    show (_ :: (split P T N m s _).1, (split P T N m s _).2) = _
    rw [ih]
    rfl

end

/-! ### The numbers of a block -/

def posOf (o : ObjExportOptions) (b : Block) : List (F32 × F32 × F32) :=
  b.vertices.map fun v => (placed o.units.scale b.translation v).position
def texOf (o : ObjExportOptions) (b : Block) : List (F32 × F32) :=
  b.vertices.map fun v => (placed o.units.scale b.translation v).texcoord
def norOf (o : ObjExportOptions) (b : Block) : List (F32 × F32 × F32) :=
  b.vertices.map fun v => (placed o.units.scale b.translation v).normal

theorem vertexLines_data (o : ObjExportOptions) (b : Block) : ∀ l ∈ vertexLines o b, isData l = true := by
  intro l hl
  simp only [vertexLines, List.mem_append, List.mem_map] at hl
  rcases hl with (⟨v, _, rfl⟩ | ⟨v, _, rfl⟩) | ⟨v, _, rfl⟩ <;> rfl

theorem positions_vertexLines (o : ObjExportOptions) (b : Block) : positions (vertexLines o b) = posOf o b := by
  unfold vertexLines
  rw [positions_append, positions_append, positions_skip (ls := b.vertices.map texcoordLine),
    positions_skip (ls := b.vertices.map normalLine)]
  · simp only [positions, posOf, List.filterMap_map, List.append_nil]
    rw [← List.filterMap_eq_map]
    rfl
  · intro l hl x y z; obtain ⟨v, _, rfl⟩ := List.mem_map.mp hl; simp [normalLine]
  · intro l hl x y z; obtain ⟨v, _, rfl⟩ := List.mem_map.mp hl; simp [texcoordLine]

theorem texcoords_vertexLines (o : ObjExportOptions) (b : Block) : texcoords (vertexLines o b) = texOf o b := by
  unfold vertexLines
  rw [texcoords_append, texcoords_append, texcoords_skip (ls := b.vertices.map (positionLine _ _)),
    texcoords_skip (ls := b.vertices.map normalLine)]
  · simp only [texcoords, texOf, List.filterMap_map, List.append_nil, List.nil_append]
    rw [← List.filterMap_eq_map]
    rfl
  · intro l hl x y; obtain ⟨v, _, rfl⟩ := List.mem_map.mp hl; simp [normalLine]
  · intro l hl x y; obtain ⟨v, _, rfl⟩ := List.mem_map.mp hl; simp [positionLine]

theorem normals_vertexLines (o : ObjExportOptions) (b : Block) : normals (vertexLines o b) = norOf o b := by
  unfold vertexLines
  rw [normals_append, normals_append, normals_skip (ls := b.vertices.map (positionLine _ _)),
    normals_skip (ls := b.vertices.map texcoordLine)]
  · simp only [normals, norOf, List.filterMap_map, List.append_nil, List.nil_append]
    rw [← List.filterMap_eq_map]
    rfl
  · intro l hl x y z; obtain ⟨v, _, rfl⟩ := List.mem_map.mp hl; simp [texcoordLine]
  · intro l hl x y z; obtain ⟨v, _, rfl⟩ := List.mem_map.mp hl; simp [positionLine]

/-- the lines of a block behind those of its vertices -/
def restLines (E : ExpandEnv) (o : ObjExportOptions) (off : Nat) (b : Block) : List SceneLine :=
  materialLines E o b ++ ((if b.smoothing then [.smooth] else []) ++ faceLines off b)

omit [Arith] in
theorem restLines_data (E : ExpandEnv) (o : ObjExportOptions) (off : Nat) (b : Block) :
    ∀ l ∈ restLines E o off b, isData l = false := by
  intro l hl
  simp only [restLines, List.mem_append] at hl
  rcases hl with hl | hl | hl
  · unfold materialLines at hl
    split at hl
    · cases hl
    · simp at hl; subst hl; rfl
  · split at hl
    · simp at hl; subst hl; rfl
    · cases hl
  · obtain ⟨f, _, rfl⟩ := List.mem_map.mp hl
    rfl

theorem blockLines_eq (E : ExpandEnv) (o : ObjExportOptions) (off : Nat) (b : Block) :
    blockLines E o off b = .object b.name :: (vertexLines o b ++ restLines E o off b) := by
  simp [blockLines, restLines]

omit [Arith] in
theorem data_skip {ls : List SceneLine} (h : ∀ l ∈ ls, isData l = false) :
    positions ls = [] ∧ texcoords ls = [] ∧ normals ls = [] := by
  refine ⟨positions_skip ?_, texcoords_skip ?_, normals_skip ?_⟩ <;>
    (intro l hl; intros; intro he; subst he; simpa [isData] using h _ hl)

theorem block_data (E : ExpandEnv) (o : ObjExportOptions) (off : Nat) (b : Block) :
    positions (blockLines E o off b) = posOf o b ∧ texcoords (blockLines E o off b) = texOf o b ∧
      normals (blockLines E o off b) = norOf o b := by
  obtain ⟨h1, h2, h3⟩ := data_skip (restLines_data E o off b)
  rw [blockLines_eq]
  refine ⟨?_, ?_, ?_⟩
  · show positions (vertexLines o b ++ restLines E o off b) = _
    rw [positions_append, h1, positions_vertexLines, List.append_nil]
  · show texcoords (vertexLines o b ++ restLines E o off b) = _
    rw [texcoords_append, h2, texcoords_vertexLines, List.append_nil]
  · show normals (vertexLines o b ++ restLines E o off b) = _
    rw [normals_append, h3, normals_vertexLines, List.append_nil]

theorem all_data (E : ExpandEnv) (o : ObjExportOptions) : ∀ (bs : List Block) (off : Nat),
    positions (allLines E o off bs) = bs.flatMap (posOf o) ∧ texcoords (allLines E o off bs) = bs.flatMap (texOf o) ∧
      normals (allLines E o off bs) = bs.flatMap (norOf o) := by
  intro bs
  induction bs with
  | nil => intro off; exact ⟨rfl, rfl, rfl⟩
  | cons b bs ih =>
    intro off
    obtain ⟨h1, h2, h3⟩ := block_data E o off b
    obtain ⟨i1, i2, i3⟩ := ih (off + b.vertices.length)
    refine ⟨?_, ?_, ?_⟩
    · rw [allLines, positions_append, h1, i1, List.flatMap_cons]
    · rw [allLines, texcoords_append, h2, i2, List.flatMap_cons]
    · rw [allLines, normals_append, h3, i3, List.flatMap_cons]

omit [Arith] in
theorem nth_middle {α β : Type} {pre post : List α} {vs : List β} {g : β → α} {off i : Nat} (h : pre.length = off) (hi : i < vs.length) :
    nth (pre ++ (vs.map g ++ post)) (i + 1 + off) = (vs[i]?).map g := by
  unfold nth
  rw [if_neg (by omega), List.getElem?_append_right (by omega), show i + 1 + off - 1 - pre.length = i by omega,
    List.getElem?_append_left (by simpa using hi), List.getElem?_map]

theorem corner_block {o : ObjExportOptions} {b : Block} {P0 T0 N0 P1 T1 N1} {off : Nat} {i : Int}
    (hp : P0.length = off) (ht : T0.length = off) (hn : N0.length = off) (h0 : 0 ≤ i) (h1 : i < b.vertices.length) :
    resolve (P0 ++ (posOf o b ++ P1)) (T0 ++ (texOf o b ++ T1)) (N0 ++ (norOf o b ++ N1)) (cornerOf off i) =
      (b.vertices[i.toNat]?).map (placed o.units.scale b.translation) := by
  have hi : i.toNat < b.vertices.length := by omega
  unfold resolve cornerOf posOf texOf norOf
  dsimp only
  rw [nth_middle hp hi, nth_middle ht hi, nth_middle hn hi]
  rw [List.getElem?_eq_getElem hi]
  rfl

theorem split_blocks (E : ExpandEnv) (o : ObjExportOptions) : ∀ (bs : List Block) (off : Nat) (P0 T0 N0) (m : Option Str)
    (s : Bool), (∀ b ∈ bs, CornersInside b) → P0.length = off → T0.length = off → N0.length = off →
    split (P0 ++ bs.flatMap (posOf o)) (T0 ++ bs.flatMap (texOf o)) (N0 ++ bs.flatMap (norOf o)) m s
      (allLines E o off bs) = ([], expected E.sanitize o m s bs) := by
  intro bs
  induction bs with
  | nil => intros; rfl
  | cons b bs ih =>
    intro off P0 T0 N0 m s hr hp ht hn
    have ihh := fun m' s' => ih (off + b.vertices.length) (P0 ++ posOf o b) (T0 ++ texOf o b) (N0 ++ norOf o b) m' s'
      (fun x hx => hr x (by simp [hx])) (by simp [posOf, hp]) (by simp [texOf, ht]) (by simp [norOf, hn])
    rw [List.append_assoc, List.append_assoc, List.append_assoc] at ihh
    rw [List.flatMap_cons, List.flatMap_cons, List.flatMap_cons]
    rw [allLines, blockLines_eq, List.cons_append]
    show ([], (⟨b.name, (split _ _ _ m s _).1⟩ : Object) :: (split _ _ _ m s _).2) = _
    rw [List.append_assoc, split_data (vertexLines_data o b)]
    have key : split (P0 ++ (posOf o b ++ bs.flatMap (posOf o))) (T0 ++ (texOf o b ++ bs.flatMap (texOf o)))
        (N0 ++ (norOf o b ++ bs.flatMap (norOf o))) m s
        (restLines E o off b ++ allLines E o (off + b.vertices.length) bs) =
        split (P0 ++ (posOf o b ++ bs.flatMap (posOf o))) (T0 ++ (texOf o b ++ bs.flatMap (texOf o)))
        (N0 ++ (norOf o b ++ bs.flatMap (norOf o)))
        (match b.material with
          | some x => some (mtlName E.sanitize o.extract_textures x b.texture)
          | none => m) (s || b.smoothing)
        (faceLines off b ++ allLines E o (off + b.vertices.length) bs) := by
      unfold restLines materialLines
      cases b.material <;> cases b.smoothing <;> simp [split]
    rw [key, faceLines, split_faces, ihh]
    rw [expected, List.append_nil]
    congr 3
    refine List.map_congr_left fun f hf => ?_
    congr 1
    refine List.map_congr_left fun i hi => ?_
    have := hr b (by simp) f hf i (by
      simp only [List.mem_cons, List.not_mem_nil, or_false] at hi ⊢
      omega)
    exact corner_block hp ht hn this.1 this.2

/-- what an export says -/
theorem export_scene {E : ExpandEnv} {S : Stock} {fuel : Nat} {o : ObjExportOptions} {vpx : VPX} {mtlFile : Str}
    {out : ObjExport} (h : exportObj E S fuel o vpx mtlFile = .ok out) :
    ∃ bss, vpx.gameitems.mapM (itemBlocks E.Z S fuel o vpx) = .ok bss ∧
      ∀ shapes, shapes = (playfieldBlock vpx.gamedata :: bss.flatten).filter solid →
      (∀ b ∈ bss.flatten, CornersInside b) → vertexCount shapes < 2 ^ 32 →
      objects out.obj = expected E.sanitize o none false shapes ∧ loose out.obj = [] := by
  unfold exportObj at h
  obtain ⟨s1, h1, h⟩ := Res.unbind h
  obtain ⟨s2, h2, h⟩ := Res.unbind h
  cases h
  obtain ⟨bss, h3, h4⟩ := writeItems_blocks h2
  refine ⟨bss, h3, ?_⟩
  rintro shapes rfl hr hn
  have hpf : CornersInside (playfieldBlock vpx.gamedata) := by
    intro f hf
    simp only [playfieldBlock, playfieldMesh, List.mem_cons, List.not_mem_nil, or_false] at hf
    rcases hf with rfl | rfl <;> simp [playfieldBlock, playfieldMesh]
  have hall : ∀ b ∈ playfieldBlock vpx.gamedata :: bss.flatten, CornersInside b := by
    intro b hb
    rcases List.mem_cons.mp hb with rfl | hb
    · exact hpf
    · exact hr b hb
  have hf : (playfieldBlock vpx.gamedata :: bss.flatten).foldlM (writeBlock E o vpx) (ObjState.start mtlFile) = .ok s2 := by
    rw [List.foldlM_cons, Res.thenOk h1]; exact h4
  obtain ⟨h5, _⟩ := writeBlocks_spec hall (by simpa [ObjState.start] using hn) hf
  have h6 : s2.obj = [.comment "VPin table OBJ file".toList, .mtllib mtlFile] ++
      allLines E o 0 ((playfieldBlock vpx.gamedata :: bss.flatten).filter solid) := h5
  obtain ⟨d1, d2, d3⟩ := all_data E o ((playfieldBlock vpx.gamedata :: bss.flatten).filter solid) 0
  have hsplit := split_blocks E o ((playfieldBlock vpx.gamedata :: bss.flatten).filter solid) 0 [] [] [] none false
    (fun b hb => hall b (List.mem_filter.mp hb).1) rfl rfl rfl
  unfold objects loose
  show (split (positions s2.obj) (texcoords s2.obj) (normals s2.obj) none false s2.obj).2 = _ ∧
    (split (positions s2.obj) (texcoords s2.obj) (normals s2.obj) none false s2.obj).1 = _
  rw [h6, positions_append, texcoords_append, normals_append, d1, d2, d3]
  have e : ∀ P T N ls, split P T N none false
      ([.comment "VPin table OBJ file".toList, .mtllib mtlFile] ++ ls) = split P T N none false ls := fun _ _ _ _ => rfl
  rw [e]
  have e1 : positions [.comment "VPin table OBJ file".toList, .mtllib mtlFile] = [] := rfl
  have e2 : texcoords [.comment "VPin table OBJ file".toList, .mtllib mtlFile] = [] := rfl
  have e3 : normals [.comment "VPin table OBJ file".toList, .mtllib mtlFile] = [] := rfl
  rw [e1, e2, e3, hsplit]
  exact ⟨rfl, rfl⟩

end Vpin
