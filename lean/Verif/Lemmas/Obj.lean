import Verif.Spec.Obj
import Verif.Lemmas.Mesh
/-! Helper lemmas about OBJ files. -/
namespace Vpin

/-! ### The comment with the bytes -/

theorem splitSpaces_word : ∀ (w : Str) (rest : Str), w ≠ [] → ' ' ∉ w →
    splitSpaces (w ++ ' ' :: rest) = w :: splitSpaces rest
  | [], _, h, _ => absurd rfl h
  | [c], rest, _, hs => by
    have hc : c ≠ ' ' := fun h => hs (by simp [h])
    show splitSpaces (c :: ' ' :: rest) = _
    rw [splitSpaces, if_neg hc]
    rw [if_pos rfl]
    have h2 : splitSpaces (' ' :: rest) = splitSpaces rest := by
      conv => lhs; unfold splitSpaces
      rw [if_pos rfl]
    rw [h2]
  | c :: d :: w, rest, _, hs => by
    have hc : c ≠ ' ' := fun h => hs (by simp [h])
    have hd : d ≠ ' ' := fun h => hs (by simp [h])
    have ih := splitSpaces_word (d :: w) rest (by simp) (fun h => hs (List.mem_cons_of_mem _ h))
    show splitSpaces (c :: d :: (w ++ ' ' :: rest)) = _
    rw [splitSpaces, if_neg hc]
    rw [if_neg hd]
    have ih' : splitSpaces (d :: (w ++ ' ' :: rest)) = (d :: w) :: splitSpaces rest := ih
    rw [ih']

theorem splitSpaces_last : ∀ (w : Str), w ≠ [] → ' ' ∉ w → splitSpaces w = [w]
  | [], h, _ => absurd rfl h
  | [c], _, hs => by
    have hc : c ≠ ' ' := fun h => hs (by simp [h])
    rw [splitSpaces, if_neg hc]
  | c :: d :: w, _, hs => by
    have hc : c ≠ ' ' := fun h => hs (by simp [h])
    have hd : d ≠ ' ' := fun h => hs (by simp [h])
    have ih := splitSpaces_last (d :: w) (by simp) (fun h => hs (List.mem_cons_of_mem _ h))
    rw [splitSpaces, if_neg hc]
    rw [if_neg hd, ih]

theorem splitSpaces_join : ∀ ws : List Str, (∀ w ∈ ws, w ≠ [] ∧ ' ' ∉ w) → splitSpaces (joinSpace ws) = ws
  | [], _ => rfl
  | [w], h => splitSpaces_last w (h w (by simp)).1 (h w (by simp)).2
  | w :: v :: ws, h => by
    have ih := splitSpaces_join (v :: ws) fun x hx => h x (List.mem_cons_of_mem _ hx)
    show splitSpaces (w ++ [' '] ++ joinSpace (v :: ws)) = _
    rw [List.append_assoc]
    show splitSpaces (w ++ ' ' :: joinSpace (v :: ws)) = _
    rw [splitSpaces_word w _ (h w (by simp)).1 (h w (by simp)).2, ih]

theorem hex2_text_table : ∀ n : Fin 256, parseHexByte (hex2 (UInt8.ofNat n.val)) = some (UInt8.ofNat n.val) ∧
    ' ' ∉ hex2 (UInt8.ofNat n.val) := by decide +kernel

theorem hex2_text (b : UInt8) : parseHexByte (hex2 b) = some b ∧ ' ' ∉ hex2 b := by
  have := hex2_text_table ⟨b.toNat, b.toNat_lt⟩
  simpa using this

theorem parseHexAll_hex2 : ∀ bs : Bytes, parseHexAll (bs.map hex2) = .ok bs
  | [] => rfl
  | b :: bs => by
    rw [List.map_cons, parseHexAll, (hex2_text b).1, parseHexAll_hex2 bs]
    rfl

theorem parseVpxComment_back (bs : Bytes) : parseVpxComment (vpxComment bs) =
    .ok (if bs.length = 12 then some (.normal bs) else if bs.length = 32 then some (.vertex bs) else none) := by
  have h1 : splitSpaces (joinSpace (bs.map hex2)) = bs.map hex2 := by
    refine splitSpaces_join _ ?_
    intro w hw
    obtain ⟨b, -, rfl⟩ := List.mem_map.1 hw
    exact ⟨by simp [hex2], (hex2_text b).2⟩
  have h2 : vpxComment bs = 'v' :: 'p' :: 'x' :: ' ' :: joinSpace (bs.map hex2) := rfl
  rw [h2]
  show (parseHexAll (splitSpaces (joinSpace (bs.map hex2))) >>= _) = _
  rw [h1, parseHexAll_hex2]
  show (if bs.length = 12 then pure (some (VpxBytes.normal bs))
    else if bs.length = 32 then pure (some (.vertex bs)) else pure none) = _
  split
  · rfl
  · split <;> rfl

/-! ### Reading lines -/

variable {T : FloatText}

/-- what is read back for a number -/
def FloatText.val (T : FloatText) (s : Str) : F64 := (T.parse64 s).getD 0
def FloatText.back (T : FloatText) (x : F32) : F32 := (T.val (T.show32 x)).toF32

theorem TextExact.back {x : F32} (h : TextExact T x) : T.back x = x := by
  obtain ⟨v, h1, h2⟩ := h
  unfold FloatText.back FloatText.val
  rw [h1]; exact h2

theorem StdText.number (h : StdText T) (x : F32) : number T (T.show32 x) = .ok (T.val (T.show32 x)) := by
  obtain ⟨v, h1⟩ := h.reads x
  unfold Vpin.number FloatText.val
  rw [h1]; rfl

theorem lines_append (r : ObjReader) : ∀ (a b : List ObjLine),
    ObjReader.lines T r (a ++ b) = (ObjReader.lines T r a >>= fun r => ObjReader.lines T r b)
  | [], b => rfl
  | l :: a, b => by
    show (ObjReader.line T r l >>= fun r => ObjReader.lines T r (a ++ b))
      = ((ObjReader.line T r l >>= fun r => ObjReader.lines T r a) >>= fun r => ObjReader.lines T r b)
    cases ObjReader.line T r l with
    | error e => rfl
    | ok r' => exact lines_append r' a b

theorem lines_v (S : StdText T) : ∀ (vs : List VertexWrapper) (r : ObjReader), r.previous = none →
    ObjReader.lines T r (vs.map fun w => .v (T.show32 w.vertex.x) (T.show32 w.vertex.y) (T.show32 w.vertex.z.neg))
      = .ok { r with vertices := r.vertices ++ vs.map fun w =>
          (T.back w.vertex.x, T.back w.vertex.y, T.back w.vertex.z.neg) }
  | [], r, _ => by simp [ObjReader.lines]
  | w :: vs, r, hr => by
    rw [List.map_cons]
    unfold ObjReader.lines
    show ((number T _ >>= fun x => number T _ >>= fun y => number T _ >>= fun z => pure _) >>= _) = _
    rw [S.number, S.number, S.number]
    show ObjReader.lines T _ _ = _
    rw [lines_v S vs _ rfl]
    simp [FloatText.back, hr]

theorem flippedV_reads (S : StdText T) (tv : F32) : ∃ v, T.parse64 (flippedV T tv).1 = some v := by
  unfold flippedV
  dsimp only
  split
  · exact S.nan
  · split
    · exact S.reads _
    · split
      · exact S.reads _
      · split
        · next t ht =>
          have hp : ∀ p s, (fun p => let s := T.showPrec p tv.toF64.oneMinus; if recovers T tv s then some s else none) p
              = some s → recovers T tv s = true := by
            intro p s h
            dsimp only at h
            split at h
            · next h2 => cases h; exact h2
            · cases h
          have hr : recovers T tv t = true := by
            unfold shortestRecovering at ht
            dsimp only at ht
            have hw : ∀ n u, recovers T tv u = true → recovers T tv
                (walkDown (fun p => if recovers T tv (T.showPrec p tv.toF64.oneMinus) then
                  some (T.showPrec p tv.toF64.oneMinus) else none) n u) = true := by
              intro n
              induction n with
              | zero => intro u hu; exact hu
              | succ n ih =>
                intro u hu
                cases n with
                | zero => exact hu
                | succ n =>
                  unfold walkDown
                  split
                  · next s hs => exact ih s (hp _ _ hs)
                  · exact hu
            split at ht
            · next u hu => cases ht; exact hw _ _ (hp _ _ hu)
            · next hu =>
              obtain ⟨p, -, h2⟩ := List.exists_of_findSome?_eq_some ht
              exact hp _ _ h2
          unfold recovers at hr
          split at hr
          · next v hv => exact ⟨v, hv⟩
          · cases hr
        · exact S.reads64 _

theorem lines_vt (S : StdText T) : ∀ (vs : List VertexWrapper) (r : ObjReader), r.previous = none →
    ObjReader.lines T r (vs.map fun w => .vt (T.show32 w.vertex.tu) (flippedV T w.vertex.tv).1)
      = .ok { r with texcoords := r.texcoords ++ vs.map fun w =>
          (T.back w.vertex.tu, T.val (flippedV T w.vertex.tv).1) }
  | [], r, _ => by simp [ObjReader.lines]
  | w :: vs, r, hr => by
    rw [List.map_cons]
    unfold ObjReader.lines
    show ((number T _ >>= fun u => number T _ >>= fun v => pure _) >>= _) = _
    have hn : number T (flippedV T w.vertex.tv).1 = .ok (T.val (flippedV T w.vertex.tv).1) := by
      obtain ⟨v, h1⟩ := flippedV_reads S w.vertex.tv
      unfold Vpin.number FloatText.val
      rw [h1]; rfl
    rw [S.number, hn]
    show ObjReader.lines T _ _ = _
    rw [lines_vt S vs _ rfl]
    simp [FloatText.back, hr]

/-- the normal that is read -/
def readNormal (T : FloatText) (w : VertexWrapper) : ObjNormal :=
  ⟨T.back (if w.vertex.nx.isNaN then 0 else w.vertex.nx), T.back (if w.vertex.ny.isNaN then 0 else w.vertex.ny),
   T.back (if w.vertex.nz.isNaN then 0 else w.vertex.nz.neg),
   if needsBytes w.vertex (flippedV T w.vertex.tv).2 then some (.vertex w.encoded) else none⟩

theorem lines_vn (S : StdText T) : ∀ (vs : List VertexWrapper) (r : ObjReader), r.previous = none →
    (∀ w ∈ vs, w.encoded.length = 32) →
    ObjReader.lines T r (vs.flatMap (normalLines T)) = .ok { r with normals := r.normals ++ vs.map (readNormal T) }
  | [], r, _, _ => by simp [ObjReader.lines]
  | w :: vs, r, hr, hl => by
    rw [List.flatMap_cons, lines_append]
    have h1 : ObjReader.lines T r (normalLines T w) = .ok { r with normals := r.normals ++ [readNormal T w] } := by
      have hw := hl w List.mem_cons_self
      unfold normalLines readNormal
      split
      · next hb =>
        rw [List.singleton_append]
        have hp : parseVpxComment (vpxComment w.encoded) = .ok (some (.vertex w.encoded)) := by
          rw [parseVpxComment_back, if_neg (by omega), if_pos hw]
        simp only [ObjReader.lines, ObjReader.line, S.number, bind, Except.bind, hp, pure, Except.pure]
        simp only [FloatText.back, hr]
      · next hb =>
        rw [List.nil_append]
        simp only [ObjReader.lines, ObjReader.line, S.number, hr]
        simp only [bind, Except.bind, pure, Except.pure]
        simp only [FloatText.back]
    rw [h1]
    simp only [bind, Except.bind]
    rw [lines_vn S vs { r with normals := r.normals ++ [readNormal T w] } hr fun x hx => hl x (List.mem_cons_of_mem _ hx)]
    simp

/-- the face that is read -/
def readCorner (i : Int) : FaceCorner := ⟨(i + 1).toNat, (i + 1).toNat, (i + 1).toNat⟩

theorem lines_f : ∀ (fs : List Face) (r : ObjReader), r.previous = none →
    ObjReader.lines T r (fs.map fun f => .f [corner f.i2, corner f.i1, corner f.i0])
      = .ok { r with faces := r.faces ++ fs.map fun f => [readCorner f.i2, readCorner f.i1, readCorner f.i0] }
  | [], r, _ => by simp [ObjReader.lines]
  | f :: fs, r, hr => by
    rw [List.map_cons]
    unfold ObjReader.lines
    have h1 : ObjReader.line T r (.f [corner f.i2, corner f.i1, corner f.i0])
        = .ok { r with faces := r.faces ++ [[readCorner f.i2, readCorner f.i1, readCorner f.i0]] } := by
      simp [ObjReader.line, corner, readCorner, hr]
    rw [h1]
    simp only [bind, Except.bind]
    rw [lines_f fs { r with faces := r.faces ++ [[readCorner f.i2, readCorner f.i1, readCorner f.i0]] } hr]
    simp

theorem lines_writeObj (S : StdText T) (name : Str) (m : Mesh) (hl : ∀ w ∈ m.vertices, w.encoded.length = 32) :
    ObjReader.lines T {} (writeObj T name m) = .ok {
      faces := m.faces.map fun f => [readCorner f.i2, readCorner f.i1, readCorner f.i0]
      vertices := m.vertices.map fun w => (T.back w.vertex.x, T.back w.vertex.y, T.back w.vertex.z.neg)
      texcoords := m.vertices.map fun w => (T.back w.vertex.tu, T.val (flippedV T w.vertex.tv).1)
      normals := m.vertices.map (readNormal T), objects := 1, name := name } := by
  unfold writeObj
  rw [lines_append, lines_append, lines_append, lines_append]
  show (((ObjReader.lines T _ _ >>= _) >>= _) >>= _) = _
  rw [lines_v S _ _ rfl]
  show ((ObjReader.lines T _ _ >>= _) >>= _) = _
  rw [lines_vt S _ _ rfl]
  show (ObjReader.lines T _ _ >>= _) = _
  rw [lines_vn S _ _ rfl hl]
  show ObjReader.lines T _ _ = _
  rw [lines_f _ _ rfl]
  simp

theorem fastFace_back {f : Face} (h : f.Below 4294967295) :
    fastFace true [readCorner f.i2, readCorner f.i1, readCorner f.i0] = .ok f := by
  obtain ⟨a1, a2, b1, b2, c1, c2⟩ := h
  have e : ∀ i : Int, 0 ≤ i → i < (4294967295 : Nat) → (((readCorner i).v % 4294967296 : Nat) : Int) - 1 = i := by
    intro i h1 h2
    simp only [readCorner]
    omega
  show Except.ok (if true = true then Face.mk _ _ _ else _) = _
  rw [if_pos rfl]
  show Except.ok (Face.mk ((((readCorner f.i0).v % 4294967296 : Nat) : Int) - 1)
    ((((readCorner f.i1).v % 4294967296 : Nat) : Int) - 1) ((((readCorner f.i2).v % 4294967296 : Nat) : Int) - 1)) = _
  rw [e _ a1 a2, e _ b1 b2, e _ c1 c2]

theorem fastFaces_back : ∀ (fs : List Face), (∀ f ∈ fs, f.Below 4294967295) →
    (fs.map fun f => [readCorner f.i2, readCorner f.i1, readCorner f.i0]).mapM (fastFace true) = .ok fs
  | [], _ => rfl
  | f :: fs, h => by
    rw [List.map_cons, List.mapM_cons, fastFace_back (h f List.mem_cons_self),
      fastFaces_back fs fun g hg => h g (List.mem_cons_of_mem _ hg)]
    rfl

theorem readObjData_write (S : StdText T) (name : Str) (m : Mesh) (hl : ∀ w ∈ m.vertices, w.encoded.length = 32)
    (hf : ∀ f ∈ m.faces, f.Below 4294967295) :
    readObjData T (writeObj T name m) true = .ok ⟨name,
      m.vertices.map fun w => (T.back w.vertex.x, T.back w.vertex.y, T.back w.vertex.z.neg),
      m.vertices.map fun w => (T.back w.vertex.tu, T.val (flippedV T w.vertex.tv).1),
      m.vertices.map (readNormal T), m.faces⟩ := by
  unfold readObjData
  rw [lines_writeObj S name m hl]
  show ((m.faces.map fun f => [readCorner f.i2, readCorner f.i1, readCorner f.i0]).mapM (fastFace true) >>= fun faces =>
    pure _) = _
  rw [fastFaces_back m.faces hf]
  rfl

/-- the vertex that is read, and its bytes -/
def readBackVertex (T : FloatText) (w : VertexWrapper) : Vertex :=
  ⟨T.back w.vertex.x, T.back w.vertex.y, (T.back w.vertex.z.neg).neg, (readNormal T w).x, (readNormal T w).y,
   (readNormal T w).z.neg, T.back w.vertex.tu, (T.val (flippedV T w.vertex.tv).1).oneMinus.toF32⟩

theorem readObj_write (S : StdText T) (name : Str) (m : Mesh) (hl : ∀ w ∈ m.vertices, w.encoded.length = 32)
    (hf : ∀ f ∈ m.faces, f.Below 4294967295) :
    readObj T (writeObj T name m) true = .ok ⟨m.vertices.map (readBackVertex T), m.vertices.length, m.faces,
      m.vertices.flatMap (fun w => vertexBytes (readBackVertex T w) (readNormal T w).bytes), name⟩ := by
  unfold readObj
  rw [readObjData_write S name m hl hf]
  show Except.ok (ObjResult.mk _ _ _ _ _) = _
  congr 2
  · rw [List.zip_map', List.zip_map', List.map_map, List.map_map]
    rfl
  · simp
  · rw [List.zip_map', List.zip_map', List.map_map, List.flatMap_map]
    rfl

theorem F32.neg_neg (x : F32) : x.neg.neg = x := by
  unfold F32.neg
  rw [UInt32.xor_assoc]
  simp

theorem recovers_val {tv : F32} {s : Str} (h : recovers T tv s = true) : (T.val s).oneMinus.toF32 = tv := by
  unfold recovers at h
  unfold FloatText.val
  split at h
  · next v hv => rw [hv]; exact of_decide_eq_true h
  · cases h

/-- a vertex is restored -/
theorem vertex_back (w : VertexWrapper) (hw : w.encoded = w.vertex.bytes)
    (he : needsBytes w.vertex (flippedV T w.vertex.tv).2 = true ∨ (w.vertex.TextExact T ∧
      recovers T w.vertex.tv (flippedV T w.vertex.tv).1 = true)) :
    vertexBytes (readBackVertex T w) (readNormal T w).bytes = w.encoded := by
  cases hb : needsBytes w.vertex (flippedV T w.vertex.tv).2 with
  | true =>
    have : (readNormal T w).bytes = some (.vertex w.encoded) := by
      unfold readNormal; rw [hb]; rfl
    rw [this]; rfl
  | false =>
    have hn : (readNormal T w).bytes = none := by
      unfold readNormal; rw [hb]; rfl
    rcases he with he | ⟨⟨h1, h2, h3, h4, h5, h6, h7⟩, h8⟩
    · rw [hb] at he; cases he
    have hnan : [w.vertex.x, w.vertex.y, w.vertex.z, w.vertex.nx, w.vertex.ny, w.vertex.nz, w.vertex.tu,
        w.vertex.tv].any F32.isNaN = false := by
      unfold needsBytes at hb
      rw [Bool.or_eq_false_iff] at hb
      exact hb.1
    simp only [List.any_cons, List.any_nil, Bool.or_false, Bool.or_eq_false_iff] at hnan
    obtain ⟨n1, n2, n3, n4, n5, n6, n7, n8⟩ := hnan
    have hv : readBackVertex T w = w.vertex := by
      unfold readBackVertex readNormal
      dsimp only
      rw [n4, n5, n6]
      simp only [Bool.false_eq_true, if_false]
      rw [h1.back, h2.back, h3.back, h4.back, h5.back, h6.back, h7.back, F32.neg_neg, F32.neg_neg, recovers_val h8]
    rw [hn, hv, hw]
    unfold vertexBytes le32NanZero Vertex.bytes
    simp [n4, n5, n6]

end Vpin
