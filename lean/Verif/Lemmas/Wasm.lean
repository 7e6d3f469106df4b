import Verif.Spec.Wasm
import Verif.Lemmas.Obj
import Verif.Lemmas.Flip
import Verif.Lemmas.Triangulate
/-
For C86: arrays in pieces of two and three, and reading the lines of `mesh_to_obj`.
-/
namespace Vpin

theorem chunks3_flatten {β : Type} (f g h : α → β) : ∀ l : List α,
    chunks3 (l.map fun a => [f a, g a, h a]).flatten = l.map fun a => (f a, g a, h a)
  | [] => rfl
  | a :: l => by
    rw [List.map_cons, List.flatten_cons, List.map_cons, ← chunks3_flatten f g h l]
    rfl

theorem chunks2_flatten {β : Type} (f g : α → β) : ∀ l : List α,
    chunks2 (l.map fun a => [f a, g a]).flatten = l.map fun a => (f a, g a)
  | [] => rfl
  | a :: l => by
    rw [List.map_cons, List.flatten_cons, List.map_cons, ← chunks2_flatten f g l]
    rfl

theorem chunks3_all {α : Type} : ∀ l : List α, l.length % 3 = 0 →
    l = ((chunks3 l).map fun t => [t.1, t.2.1, t.2.2]).flatten
  | [], _ => rfl
  | [_], h => by simp at h
  | [_, _], h => by simp at h
  | a :: b :: c :: l, h => by
    have := chunks3_all l (by simp only [List.length_cons] at h; omega)
    rw [chunks3, List.map_cons, List.flatten_cons, ← this]
    rfl

theorem chunks2_all {α : Type} : ∀ l : List α, l.length % 2 = 0 →
    l = ((chunks2 l).map fun t => [t.1, t.2]).flatten
  | [], _ => rfl
  | [_], h => by simp at h
  | a :: b :: l, h => by
    have := chunks2_all l (by simp only [List.length_cons] at h; omega)
    rw [chunks2, List.map_cons, List.flatten_cons, ← this]
    rfl

theorem chunks3_length {α : Type} : ∀ l : List α, (chunks3 l).length = l.length / 3
  | [] => by simp [chunks3]
  | [_] => by simp [chunks3]
  | [_, _] => by simp [chunks3]
  | a :: b :: c :: l => by
    rw [chunks3, List.length_cons, chunks3_length l]
    simp only [List.length_cons]; omega

theorem chunks2_length {α : Type} : ∀ l : List α, (chunks2 l).length = l.length / 2
  | [] => by simp [chunks2]
  | [_] => by simp [chunks2]
  | a :: b :: l => by
    rw [chunks2, List.length_cons, chunks2_length l]
    simp only [List.length_cons]; omega

theorem flatten3_length (f g h : α → β) : ∀ l : List α, (l.map fun a => [f a, g a, h a]).flatten.length = 3 * l.length
  | [] => rfl
  | a :: l => by
    rw [List.map_cons, List.flatten_cons, List.length_append, flatten3_length f g h l]
    simp only [List.length_cons, List.length_nil]; omega

theorem flatten2_length (f g : α → β) : ∀ l : List α, (l.map fun a => [f a, g a]).flatten.length = 2 * l.length
  | [] => rfl
  | a :: l => by
    rw [List.map_cons, List.flatten_cons, List.length_append, flatten2_length f g l]
    simp only [List.length_cons, List.length_nil]; omega

/-- three lists of the same length come from vertices -/
theorem vertices_of : ∀ (ps : List (F32 × F32 × F32)) (ts : List (F32 × F32)) (ns : List (F32 × F32 × F32)),
    ts.length = ps.length → ns.length = ps.length → ∃ vs : List Vertex, ps = vs.map (fun v => (v.x, v.y, v.z)) ∧
      ts = vs.map (fun v => (v.tu, v.tv)) ∧ ns = vs.map (fun v => (v.nx, v.ny, v.nz))
  | [], [], [], _, _ => ⟨[], rfl, rfl, rfl⟩
  | p :: ps, t :: ts, n :: ns, h1, h2 => by
    obtain ⟨vs, e1, e2, e3⟩ := vertices_of ps ts ns (by simpa using h1) (by simpa using h2)
    exact ⟨⟨p.1, p.2.1, p.2.2, n.1, n.2.1, n.2.2, t.1, t.2⟩ :: vs, by rw [e1]; rfl, by rw [e2]; rfl, by rw [e3]; rfl⟩
  | [], _ :: _, _, h, _ => by cases h
  | [], [], _ :: _, _, h => by cases h
  | _ :: _, [], _, h, _ => by cases h
  | _ :: _, _ :: _, [], _, h => by cases h

/-- when the arrays are accepted, and what is written -/
theorem meshToObj_eq (T : FloatText) {vs : List Vertex} {ts : List (UInt32 × UInt32 × UInt32)} {p t n : List F32}
    {i : List UInt32} (h : Describes vs ts p t n i) (name : Str) (convert : Bool) :
    meshToObj T name p t n i convert = (do
      let faces ← ts.mapM (triangleLine vs.length convert)
      pure ([.comment "numVerts".toList, .object (if name.isEmpty then "object".toList else name)]
        ++ vs.map (fun v => .v (T.show32 v.x) (T.show32 v.y) (T.show32 (zSigned convert v.z)))
        ++ vs.map (fun v => .vt (T.show32 v.tu) (vText T convert v.tv))
        ++ vs.map (fun v => .vn (T.show32 v.nx) (T.show32 v.ny) (T.show32 (zSigned convert v.nz)))
        ++ faces)) := by
  obtain ⟨rfl, rfl, rfl, rfl⟩ := h
  have l1 := flatten3_length Vertex.x Vertex.y Vertex.z vs
  have l2 := flatten2_length Vertex.tu Vertex.tv vs
  have l3 := flatten3_length Vertex.nx Vertex.ny Vertex.nz vs
  have l4 := flatten3_length (fun t : UInt32 × UInt32 × UInt32 => t.1) (·.2.1) (·.2.2) ts
  have e3 : chunks3 (ts.map fun t => [t.1, t.2.1, t.2.2]).flatten = ts := by
    rw [chunks3_flatten (fun t : UInt32 × UInt32 × UInt32 => t.1) (·.2.1) (·.2.2)]
    simp
  unfold meshToObj
  rw [l1, l2, l3, l4, e3, chunks3_flatten Vertex.x Vertex.y Vertex.z, chunks2_flatten Vertex.tu Vertex.tv,
    chunks3_flatten Vertex.nx Vertex.ny Vertex.nz]
  simp only [Nat.mul_mod_right, ne_eq, not_true_eq_false, if_false, Nat.mul_div_cancel_left _ (Nat.zero_lt_succ _),
    or_self, List.map_map]
  rfl

theorem triangleLine_ok {n : Nat} {convert : Bool} {t : UInt32 × UInt32 × UInt32} :
    (∃ l, triangleLine n convert t = .ok l) ↔ CornersBelow n t := by
  unfold triangleLine CornersBelow
  constructor
  · rintro ⟨l, h⟩
    split at h
    · cases h
    · split at h
      · cases h
      · split at h
        · cases h
        · omega
  · rintro ⟨h1, h2, h3⟩
    rw [if_neg (by omega), if_neg (by omega), if_neg (by omega)]
    exact ⟨_, rfl⟩

theorem triangleLine_error {n : Nat} {convert : Bool} {t : UInt32 × UInt32 × UInt32} {e : Err}
    (h : triangleLine n convert t = .error e) : e = .io := by
  unfold triangleLine at h
  split at h
  · cases h; rfl
  · split at h
    · cases h; rfl
    · split at h
      · cases h; rfl
      · cases h

/-- the corner as it is written -/
def wasmCorner (i : UInt32) : Nat × Option Nat × Option Nat := (i.toNat + 1, some (i.toNat + 1), some (i.toNat + 1))

theorem triangleLines_eq {n : Nat} (convert : Bool) : ∀ ts : List (UInt32 × UInt32 × UInt32),
    (∀ t ∈ ts, CornersBelow n t) → ts.mapM (triangleLine n convert) = .ok (ts.map fun t => .f (if convert then
      [wasmCorner t.2.2, wasmCorner t.2.1, wasmCorner t.1] else [wasmCorner t.1, wasmCorner t.2.1, wasmCorner t.2.2]))
  | [], _ => rfl
  | t :: ts, h => by
    have ht := h t List.mem_cons_self
    unfold CornersBelow at ht
    have e : triangleLine n convert t = .ok (.f (if convert then
        [wasmCorner t.2.2, wasmCorner t.2.1, wasmCorner t.1]
        else [wasmCorner t.1, wasmCorner t.2.1, wasmCorner t.2.2])) := by
      unfold triangleLine
      rw [if_neg (by omega), if_neg (by omega), if_neg (by omega)]
      rfl
    rw [List.mapM_cons, e, triangleLines_eq convert ts fun x hx => h x (List.mem_cons_of_mem _ hx)]
    rfl

theorem triangleLines_inv {n : Nat} {convert : Bool} : ∀ {ts : List (UInt32 × UInt32 × UInt32)} {ls : List ObjLine},
    ts.mapM (triangleLine n convert) = .ok ls → ∀ t ∈ ts, CornersBelow n t
  | [], _, _, t, ht => by cases ht
  | a :: ts, ls, h, t, ht => by
    rw [List.mapM_cons] at h
    obtain ⟨l, h1, h⟩ := Res.unbind h
    obtain ⟨ls', h2, -⟩ := Res.unbind h
    rcases List.mem_cons.1 ht with rfl | ht
    · exact triangleLine_ok.1 ⟨l, h1⟩
    · exact triangleLines_inv h2 t ht

theorem triangleLines_error {n : Nat} {convert : Bool} : ∀ {ts : List (UInt32 × UInt32 × UInt32)} {e : Err},
    ts.mapM (triangleLine n convert) = .error e → e = .io
  | [], e, h => by cases h
  | a :: ts, e, h => by
    rw [List.mapM_cons] at h
    rcases Res.bind_err h with h | ⟨l, -, h⟩
    · exact triangleLine_error h
    · rcases Res.bind_err h with h | ⟨ls, -, h⟩
      · exact triangleLines_error h
      · cases h

/-! ### Reading -/

variable {T : FloatText}

theorem lines_v_of (S : StdText T) (f g h : α → F32) : ∀ (vs : List α) (r : ObjReader), r.previous = none →
    ObjReader.lines T r (vs.map fun v => .v (T.show32 (f v)) (T.show32 (g v)) (T.show32 (h v)))
      = .ok { r with vertices := r.vertices ++ vs.map fun v => (T.back (f v), T.back (g v), T.back (h v)) }
  | [], r, _ => by simp [ObjReader.lines]
  | w :: vs, r, hr => by
    rw [List.map_cons]
    unfold ObjReader.lines
    show ((number T _ >>= fun x => number T _ >>= fun y => number T _ >>= fun z => pure _) >>= _) = _
    rw [S.number, S.number, S.number]
    show ObjReader.lines T _ _ = _
    rw [lines_v_of S f g h vs _ rfl]
    simp [FloatText.back, hr]

theorem vText_reads (S : StdText T) (convert : Bool) (tv : F32) :
    number T (vText T convert tv) = .ok (T.val (vText T convert tv)) := by
  unfold vText
  split
  · obtain ⟨v, h1⟩ := flippedV_reads S tv
    unfold Vpin.number FloatText.val
    rw [h1]; rfl
  · exact S.number tv

theorem lines_vt_of (S : StdText T) (convert : Bool) : ∀ (vs : List Vertex) (r : ObjReader), r.previous = none →
    ObjReader.lines T r (vs.map fun v => .vt (T.show32 v.tu) (vText T convert v.tv))
      = .ok { r with texcoords := r.texcoords ++ vs.map fun v => (T.back v.tu, T.val (vText T convert v.tv)) }
  | [], r, _ => by simp [ObjReader.lines]
  | w :: vs, r, hr => by
    rw [List.map_cons]
    unfold ObjReader.lines
    show ((number T _ >>= fun u => number T _ >>= fun v => pure _) >>= _) = _
    rw [S.number, vText_reads S]
    show ObjReader.lines T _ _ = _
    rw [lines_vt_of S convert vs _ rfl]
    simp [FloatText.back, hr]

theorem lines_vn_of (S : StdText T) (f g h : α → F32) : ∀ (vs : List α) (r : ObjReader), r.previous = none →
    ObjReader.lines T r (vs.map fun v => .vn (T.show32 (f v)) (T.show32 (g v)) (T.show32 (h v)))
      = .ok { r with normals := r.normals ++ vs.map fun v => ⟨T.back (f v), T.back (g v), T.back (h v), none⟩ }
  | [], r, _ => by simp [ObjReader.lines]
  | w :: vs, r, hr => by
    rw [List.map_cons]
    unfold ObjReader.lines
    have h1 : ObjReader.line T r (.vn (T.show32 (f w)) (T.show32 (g w)) (T.show32 (h w)))
        = .ok { r with normals := r.normals ++ [⟨T.back (f w), T.back (g w), T.back (h w), none⟩] } := by
      simp only [ObjReader.line, S.number, hr, bind, Except.bind, pure, Except.pure, FloatText.back]
    rw [h1]
    show ObjReader.lines T _ _ = _
    rw [lines_vn_of S f g h vs { r with normals := r.normals ++ [⟨T.back (f w), T.back (g w), T.back (h w), none⟩] } hr]
    simp

/-- the corner as it is read -/
def wasmFaceCorner (i : UInt32) : FaceCorner := ⟨i.toNat + 1, i.toNat + 1, i.toNat + 1⟩

theorem lines_f_of (convert : Bool) : ∀ (ts : List (UInt32 × UInt32 × UInt32)) (r : ObjReader), r.previous = none →
    ObjReader.lines T r (ts.map fun t => .f (if convert then [wasmCorner t.2.2, wasmCorner t.2.1, wasmCorner t.1]
        else [wasmCorner t.1, wasmCorner t.2.1, wasmCorner t.2.2]))
      = .ok { r with faces := r.faces ++ ts.map fun t => if convert then
          [wasmFaceCorner t.2.2, wasmFaceCorner t.2.1, wasmFaceCorner t.1]
          else [wasmFaceCorner t.1, wasmFaceCorner t.2.1, wasmFaceCorner t.2.2] }
  | [], r, _ => by simp [ObjReader.lines]
  | t :: ts, r, hr => by
    rw [List.map_cons]
    unfold ObjReader.lines
    have h1 : ObjReader.line T r (.f (if convert then [wasmCorner t.2.2, wasmCorner t.2.1, wasmCorner t.1]
        else [wasmCorner t.1, wasmCorner t.2.1, wasmCorner t.2.2]))
        = .ok { r with faces := r.faces ++ [if convert then
          [wasmFaceCorner t.2.2, wasmFaceCorner t.2.1, wasmFaceCorner t.1]
          else [wasmFaceCorner t.1, wasmFaceCorner t.2.1, wasmFaceCorner t.2.2]] } := by
      cases convert <;> simp [ObjReader.line, wasmCorner, wasmFaceCorner, hr]
    rw [h1]
    show ObjReader.lines T _ _ = _
    rw [lines_f_of convert ts { r with faces := r.faces ++ [if convert then
          [wasmFaceCorner t.2.2, wasmFaceCorner t.2.1, wasmFaceCorner t.1]
          else [wasmFaceCorner t.1, wasmFaceCorner t.2.1, wasmFaceCorner t.2.2]] } hr]
    simp

/-- the triangle as a face -/
def wasmFace (t : UInt32 × UInt32 × UInt32) : Face :=
  let n (i : UInt32) : Int := (((i.toNat + 1) % 4294967296 : Nat) : Int) - 1
  ⟨n t.1, n t.2.1, n t.2.2⟩

theorem fastFaces_of (convert : Bool) : ∀ ts : List (UInt32 × UInt32 × UInt32),
    (ts.map fun t => if convert then [wasmFaceCorner t.2.2, wasmFaceCorner t.2.1, wasmFaceCorner t.1]
          else [wasmFaceCorner t.1, wasmFaceCorner t.2.1, wasmFaceCorner t.2.2]).mapM (fastFace convert)
      = .ok (ts.map wasmFace)
  | [] => rfl
  | t :: ts => by
    rw [List.map_cons, List.mapM_cons, fastFaces_of convert ts]
    cases convert <;> rfl

theorem wasmFace_indices : ∀ ts : List (UInt32 × UInt32 × UInt32),
    ((ts.map wasmFace).flatMap fun f => [f.i0, f.i1, f.i2].map fun i => UInt32.ofNat (i % 2 ^ 32).toNat)
      = (ts.map fun t => [t.1, t.2.1, t.2.2]).flatten
  | [] => rfl
  | t :: ts => by
    rw [List.map_cons, List.flatMap_cons, wasmFace_indices ts]
    show _ ++ _ = [t.1, t.2.1, t.2.2] ++ _
    congr 1
    have e : ∀ i : UInt32, UInt32.ofNat ((((((i.toNat + 1) % 4294967296 : Nat) : Int) - 1) % 2 ^ 32).toNat) = i := by
      intro i
      apply UInt32.toNat_inj.1
      have := i.toNat_lt
      rw [UInt32.toNat_ofNat']
      omega
    simp only [wasmFace, List.map_cons, List.map_nil, e]

end Vpin
