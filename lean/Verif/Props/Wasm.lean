import Verif.Lemmas.Wasm
import Verif.Props.Triangulate
import Verif.Props.Prism
import Verif.Props.Expanded
import Verif.Props.ExpandedFiles
import Verif.Props.Vpx
import Verif.Props.FlatShape
/-
C86: the meshes of the package for web browsers as OBJ files and back.
C87: tables in web browsers: all files of a table, and the table again.
-/
namespace Vpin
variable {T : FloatText}

/-! ### Writing -/

/-- **C86**: `mesh_to_obj` accepts arrays exactly when they describe vertices and triangles with corners among these. -/
theorem C86_accepts (name : Str) (p t n : List F32) (i : List UInt32) (convert : Bool) :
    (∃ ls, meshToObj T name p t n i convert = .ok ls) ↔
      ∃ vs ts, Describes vs ts p t n i ∧ ∀ t ∈ ts, CornersBelow vs.length t := by
  constructor
  · rintro ⟨ls, h⟩
    have hd : ∃ vs ts, Describes vs ts p t n i := by
      unfold meshToObj at h
      by_cases h1 : p.length % 3 = 0
      · by_cases h2 : t.length % 2 = 0
        · by_cases h3 : n.length % 3 = 0
          · by_cases h4 : i.length % 3 = 0
            · by_cases h5 : t.length / 2 = p.length / 3 ∧ n.length / 3 = p.length / 3
              · obtain ⟨vs, e1, e2, e3⟩ := vertices_of (chunks3 p) (chunks2 t) (chunks3 n)
                  (by rw [chunks2_length, chunks3_length, h5.1]) (by rw [chunks3_length, chunks3_length, h5.2])
                refine ⟨vs, chunks3 i, ?_, ?_, ?_, chunks3_all i h4⟩
                · conv => lhs; rw [chunks3_all p h1, e1]
                  rw [List.map_map]; rfl
                · conv => lhs; rw [chunks2_all t h2, e2]
                  rw [List.map_map]; rfl
                · conv => lhs; rw [chunks3_all n h3, e3]
                  rw [List.map_map]; rfl
              · simp only [h1, h2, h3, h4, ne_eq, not_true_eq_false, if_false] at h
                rw [if_pos (by omega)] at h
                cases h
            · simp only [h1, h2, h3, h4, ne_eq, not_true_eq_false, if_false, not_false_eq_true, if_true] at h
              cases h
          · simp only [h1, h2, h3, ne_eq, not_true_eq_false, if_false, not_false_eq_true, if_true] at h
            cases h
        · simp only [h1, h2, ne_eq, not_true_eq_false, if_false, not_false_eq_true, if_true] at h
          cases h
      · simp only [h1, ne_eq, not_false_eq_true, if_true] at h
        cases h
    obtain ⟨vs, ts, hd⟩ := hd
    refine ⟨vs, ts, hd, ?_⟩
    rw [meshToObj_eq T hd] at h
    obtain ⟨ls, h1, -⟩ := Res.unbind h
    exact triangleLines_inv h1
  · rintro ⟨vs, ts, hd, hb⟩
    rw [meshToObj_eq T hd, triangleLines_eq convert ts hb]
    exact ⟨_, rfl⟩

/-- **C86**: it never aborts: anything else is reported as an error. -/
theorem C86_no_panic (name : Str) (p t n : List F32) (i : List UInt32) (convert : Bool) (e : Err)
    (h : meshToObj T name p t n i convert = .error e) : e = .io := by
  unfold meshToObj at h
  by_cases h1 : p.length % 3 = 0
  · by_cases h2 : t.length % 2 = 0
    · by_cases h3 : n.length % 3 = 0
      · by_cases h4 : i.length % 3 = 0
        · simp only [h1, h2, h3, h4, ne_eq, not_true_eq_false, if_false] at h
          by_cases h5 : ¬ t.length / 2 = p.length / 3 ∨ ¬ n.length / 3 = p.length / 3
          · rw [if_pos h5] at h
            cases h; rfl
          · rw [if_neg h5] at h
            rcases Res.bind_err h with h | ⟨ls, -, h⟩
            · exact triangleLines_error h
            · cases h
        · simp only [h1, h2, h3, h4, ne_eq, not_true_eq_false, if_false, not_false_eq_true, if_true] at h
          cases h; rfl
      · simp only [h1, h2, h3, ne_eq, not_true_eq_false, if_false, not_false_eq_true, if_true] at h
        cases h; rfl
    · simp only [h1, h2, ne_eq, not_true_eq_false, if_false, not_false_eq_true, if_true] at h
      cases h; rfl
  · simp only [h1, ne_eq, not_false_eq_true, if_true] at h
    cases h; rfl

/-- **C86**: what `mesh_to_obj` writes, `obj_to_mesh` with the same choice of convention reads as the same mesh: the
same arrays, bit for bit, and the same name (`object` if there was none). -/
theorem C86_back (S : StdText T) (name : Str) (convert : Bool) (vs : List Vertex)
    (ts : List (UInt32 × UInt32 × UInt32)) (p t n : List F32) (i : List UInt32) (hd : Describes vs ts p t n i)
    (hb : ∀ t ∈ ts, CornersBelow vs.length t) (hs : ∀ v ∈ vs, v.Survives T convert) :
    ∃ ls, meshToObj T name p t n i convert = .ok ls ∧
      objToMesh T ls convert = .ok ⟨if name = [] then "object".toList else name, p, t, n, i⟩ := by
  refine ⟨_, by rw [meshToObj_eq T hd, triangleLines_eq convert ts hb]; rfl, ?_⟩
  have hname : (if name.isEmpty then "object".toList else name) = if name = [] then "object".toList else name := by
    cases name <;> rfl
  rw [hname]
  generalize (if name = [] then "object".toList else name) = nm
  unfold objToMesh readObj readObjData
  rw [lines_append, lines_append, lines_append, lines_append]
  have h0 : ObjReader.lines T {} [.comment "numVerts".toList, .object nm]
      = .ok { objects := 1, name := nm } := rfl
  rw [h0]
  simp only [bind, Except.bind]
  rw [lines_v_of S Vertex.x Vertex.y (fun v => zSigned convert v.z) vs _ rfl]
  dsimp only
  rw [lines_vt_of S convert vs _ rfl]
  dsimp only
  rw [lines_vn_of S Vertex.nx Vertex.ny (fun v => zSigned convert v.nz) vs _ rfl]
  dsimp only
  rw [lines_f_of convert ts _ rfl]
  dsimp only [List.nil_append]
  rw [if_neg (by decide), if_neg (by decide), fastFaces_of]
  dsimp only [pure, Except.pure]
  rw [List.zip_map', List.zip_map', List.map_map, List.map_map]
  obtain ⟨rfl, rfl, rfl, rfl⟩ := hd
  unfold WasmMesh.of
  rw [wasmFace_indices]
  have hv : vs.map ((fun x : Vertex × Option VpxBytes => x.1) ∘ (fun x : ((F32 × F32 × F32) × (F32 × F64)) × ObjNormal =>
      (Vertex.mk x.1.1.1 x.1.1.2.1 (if convert = true then x.1.1.2.2.neg else x.1.1.2.2) x.2.x x.2.y
        (if convert = true then x.2.z.neg else x.2.z) x.1.2.1
        (if convert = true then x.1.2.2.oneMinus.toF32 else x.1.2.2.toF32), x.2.bytes)) ∘ fun v : Vertex =>
      (((T.back v.x, T.back v.y, T.back (zSigned convert v.z)), (T.back v.tu, T.val (vText T convert v.tv))),
        (⟨T.back v.nx, T.back v.ny, T.back (zSigned convert v.nz), none⟩ : ObjNormal))) = vs := by
    conv => rhs; rw [← List.map_id vs]
    apply List.map_congr_left
    intro v hv
    have h := hs v hv
    cases convert with
    | true =>
      obtain ⟨⟨t1, t2, t3, t4, t5, t6, t7⟩, t8⟩ := h
      have t8 := recovers_val (flippedV_exact S t8)
      simp only [Function.comp_apply, zSigned, vText, if_true, t1.back, t2.back, t3.back, t4.back, t5.back, t6.back,
        t7.back, t8, F32.neg_neg]
      rfl
    | false =>
      have h : ∀ x ∈ [v.x, v.y, v.z, v.nx, v.ny, v.nz, v.tu, v.tv], TextExact T x := h
      simp only [List.mem_cons, List.not_mem_nil, or_false, forall_eq_or_imp, forall_eq] at h
      obtain ⟨t1, t2, t3, t4, t5, t6, t7, t8⟩ := h
      have t8 : (T.val (T.show32 v.tv)).toF32 = v.tv := t8.back
      simp only [Function.comp_apply, zSigned, vText, Bool.false_eq_true, if_false, t1.back, t2.back, t3.back, t4.back,
        t5.back, t6.back, t7.back, t8]
      rfl
  have hv' := hv
  simp only [Function.comp_def] at hv' ⊢
  rw [hv']
  simp only [List.flatMap]

/-! ### Reading -/

/-- an index as 32 bits, cut if it is none -/
def wasmIndex (i : Int) : UInt32 := UInt32.ofNat (i % 2 ^ 32).toNat

theorem WasmMesh.of_describes (name : Str) (vs : List Vertex) (fs : List Face) :
    let m := WasmMesh.of name vs fs
    Describes vs (fs.map fun f => (wasmIndex f.i0, wasmIndex f.i1, wasmIndex f.i2)) m.positions m.texCoords m.normals
      m.indices := by
  refine ⟨rfl, rfl, rfl, ?_⟩
  rw [List.map_map]
  rfl

theorem wasmIndex_toNat {i : Int} (h0 : 0 ≤ i) (h : i < 4294967296) : ((wasmIndex i).toNat : Int) = i := by
  unfold wasmIndex
  rw [UInt32.toNat_ofNat']
  omega

/-- a vertex that survives its text is read as it was -/
theorem readBackVertex_same (S : StdText T) (w : VertexWrapper) (hn : ¬ w.vertex.HasNaN)
    (hs : w.vertex.Survives T true) : readBackVertex T w = w.vertex := by
  obtain ⟨⟨t1, t2, t3, t4, t5, t6, t7⟩, t8⟩ := hs
  unfold Vertex.HasNaN at hn
  simp only [List.any_cons, List.any_nil, Bool.or_false, Bool.or_eq_true, not_or, Bool.not_eq_true] at hn
  obtain ⟨n1, n2, n3, n4, n5, n6, n7, n8⟩ := hn
  unfold readBackVertex readNormal
  simp only [n4, n5, n6, Bool.false_eq_true, if_false, t1.back, t2.back, t3.back, t4.back, t5.back, t6.back, t7.back,
    recovers_val (flippedV_exact S t8), F32.neg_neg]

/-- **C86**: the OBJ file of a primitive among the files of an extracted table is read as the mesh of the primitive. -/
theorem C86_extracted (S : StdText T) (name : Str) (m : Mesh) (hb : m.FromFile)
    (hf : ∀ f ∈ m.faces, f.Below 4294967295) (hn : ∀ w ∈ m.vertices, ¬ w.vertex.HasNaN)
    (hs : ∀ w ∈ m.vertices, w.vertex.Survives T true) :
    ∃ r ts, objToMesh T (writeObj T name m) true = .ok r ∧ r.name = name ∧
      Describes (m.vertices.map (·.vertex)) ts r.positions r.texCoords r.normals r.indices ∧
      ts.map (fun t => (⟨t.1.toNat, t.2.1.toNat, t.2.2.toNat⟩ : Face)) = m.faces := by
  have hl : ∀ w ∈ m.vertices, w.encoded.length = 32 := fun w hw => by rw [hb w hw]; rfl
  have hv : m.vertices.map (readBackVertex T) = m.vertices.map (·.vertex) :=
    List.map_congr_left fun w hw => readBackVertex_same S w (hn w hw) (hs w hw)
  refine ⟨WasmMesh.of name (m.vertices.map (·.vertex)) m.faces, _, ?_, rfl, WasmMesh.of_describes _ _ _, ?_⟩
  · unfold objToMesh
    rw [readObj_write S name m hl hf, hv]
    rfl
  · rw [List.map_map]
    conv => rhs; rw [← List.map_id m.faces]
    apply List.map_congr_left
    intro f hfm
    obtain ⟨a1, a2, b1, b2, c1, c2⟩ := hf f hfm
    simp only [Function.comp_apply, id_eq]
    rw [wasmIndex_toNat a1 (by omega), wasmIndex_toNat b1 (by omega), wasmIndex_toNat c1 (by omega)]

/-- **C86**: with the conversion `mesh_to_obj` writes the same file as extracting a table does, but for comments: if no
number of the mesh is a NaN, a mesh that is written either way differs only in these. -/
theorem C86_same_lines (name : Str) (hname : name ≠ []) (m : Mesh) (ts : List (UInt32 × UInt32 × UInt32))
    (p t n : List F32) (i : List UInt32) (hd : Describes (m.vertices.map (·.vertex)) ts p t n i)
    (hb : ∀ t ∈ ts, CornersBelow m.vertices.length t)
    (hf : m.faces = ts.map fun t => ⟨t.1.toNat, t.2.1.toNat, t.2.2.toNat⟩)
    (hn : ∀ w ∈ m.vertices, ¬ w.vertex.HasNaN) :
    ∃ ls, meshToObj T name p t n i true = .ok ls ∧
      ls.filter ObjLine.Matters = (writeObj T name m).filter ObjLine.Matters := by
  refine ⟨_, by rw [meshToObj_eq T hd, triangleLines_eq true ts (by simpa using hb)]; rfl, ?_⟩
  unfold writeObj
  rw [hf]
  have hname' : (if name.isEmpty then "object".toList else name) = name := by
    cases name with
    | nil => exact absurd rfl hname
    | cons _ _ => rfl
  simp only [List.filter_append, hname']
  have h0 : ∀ nm, [ObjLine.comment "numVerts".toList, .object nm].filter ObjLine.Matters = [.object nm] := fun _ => rfl
  have h1 : ∀ nm, [ObjLine.comment "VPXTOOL table OBJ file".toList, .comment "VPXTOOL OBJ file".toList,
    .comment "numVerts".toList, .object nm].filter ObjLine.Matters = [.object nm] := fun _ => rfl
  rw [h0, h1, List.map_map, List.map_map, List.map_map, List.map_map]
  congr 1
  · congr 1
    have : ∀ vs : List VertexWrapper, (∀ w ∈ vs, ¬ w.vertex.HasNaN) →
        (vs.map fun w => ObjLine.vn (T.show32 w.vertex.nx) (T.show32 w.vertex.ny) (T.show32 w.vertex.nz.neg)).filter
          ObjLine.Matters = (vs.flatMap (normalLines T)).filter ObjLine.Matters := by
      intro vs
      induction vs with
      | nil => intro _; rfl
      | cons w vs ih =>
        intro h
        have hw := h w List.mem_cons_self
        unfold Vertex.HasNaN at hw
        simp only [List.any_cons, List.any_nil, Bool.or_false, Bool.or_eq_true, not_or, Bool.not_eq_true] at hw
        obtain ⟨n1, n2, n3, n4, n5, n6, n7, n8⟩ := hw
        rw [List.flatMap_cons, List.filter_append, ← ih fun x hx => h x (List.mem_cons_of_mem _ hx), List.map_cons,
          ← List.singleton_append, List.filter_append]
        congr 1
        unfold normalLines
        rw [n4, n5, n6, List.filter_append]
        split <;> rfl
    exact this m.vertices hn

/-- **C86**: the arrays of a mesh that is read always describe vertices and triangles. -/
theorem C86_aligned (ls : List ObjLine) (convert : Bool) (m : WasmMesh) (h : objToMesh T ls convert = .ok m) :
    ∃ vs ts, Describes vs ts m.positions m.texCoords m.normals m.indices := by
  unfold objToMesh at h
  obtain ⟨r, -, h⟩ := Res.unbind h
  cases h
  exact ⟨_, _, WasmMesh.of_describes _ _ _⟩

/-! ### Files of other programs -/

theorem flatten_get3 {α β : Type} (f g h : α → β) : ∀ (l : List α) (i : Nat),
    (l.map fun a => [f a, g a, h a]).flatten[3 * i]? = l[i]?.map f ∧
    (l.map fun a => [f a, g a, h a]).flatten[3 * i + 1]? = l[i]?.map g ∧
    (l.map fun a => [f a, g a, h a]).flatten[3 * i + 2]? = l[i]?.map h
  | [], i => by simp
  | a :: l, 0 => ⟨rfl, rfl, rfl⟩
  | a :: l, i + 1 => by
    obtain ⟨h1, h2, h3⟩ := flatten_get3 f g h l i
    rw [List.getElem?_cons_succ, ← h1, ← h2, ← h3]
    exact ⟨rfl, rfl, rfl⟩

theorem flatten_get2 {α β : Type} (f g : α → β) : ∀ (l : List α) (i : Nat),
    (l.map fun a => [f a, g a]).flatten[2 * i]? = l[i]?.map f ∧
    (l.map fun a => [f a, g a]).flatten[2 * i + 1]? = l[i]?.map g
  | [], i => by simp
  | a :: l, 0 => ⟨rfl, rfl⟩
  | a :: l, i + 1 => by
    obtain ⟨h1, h2⟩ := flatten_get2 f g l i
    rw [List.getElem?_cons_succ, ← h1, ← h2]
    exact ⟨rfl, rfl⟩

/-- the vertices of the arrays are those described -/
theorem Describes.vertex {vs : List Vertex} {ts : List (UInt32 × UInt32 × UInt32)} {m : WasmMesh}
    (h : Describes vs ts m.positions m.texCoords m.normals m.indices) (i : Nat) : m.vertex i = vs[i]? := by
  obtain ⟨a1, a2, a3⟩ := flatten_get3 Vertex.x Vertex.y Vertex.z vs i
  obtain ⟨b1, b2, b3⟩ := flatten_get3 Vertex.nx Vertex.ny Vertex.nz vs i
  obtain ⟨c1, c2⟩ := flatten_get2 Vertex.tu Vertex.tv vs i
  unfold WasmMesh.vertex
  rw [h.positions, h.normals, h.texCoords, a1, a2, a3, b1, b2, b3, c1, c2]
  cases vs[i]? <;> rfl

/-- the vertices that are read, one by one -/
theorem readObj_vertex {ls : List ObjLine} {convert : Bool} {r : ObjResult} {d : ObjData}
    (hd : readObjData T ls convert = .ok d) (h : readObj T ls convert = .ok r) (i : Nat) :
    r.finalVertices[i]? = objVertex convert d.vertices[i]? d.texcoords[i]? (d.normals[i]?.map fun n => (n.x, n.y, n.z)) := by
  unfold readObj at h
  rw [hd] at h
  cases h
  simp only [List.map_map, List.getElem?_map]
  cases h1 : d.vertices[i]? with
  | none =>
    rw [List.getElem?_eq_none (by simp; have := List.getElem?_eq_none_iff.1 h1; omega)]
    rfl
  | some v =>
    cases h2 : d.texcoords[i]? with
    | none =>
      rw [List.getElem?_eq_none (by simp; have := List.getElem?_eq_none_iff.1 h2; omega)]
      rfl
    | some t =>
      cases h3 : d.normals[i]? with
      | none =>
        rw [List.getElem?_eq_none (by simp; have := List.getElem?_eq_none_iff.1 h3; omega)]
        rfl
      | some n =>
        have e : ((d.vertices.zip d.texcoords).zip d.normals)[i]? = some ((v, t), n) :=
          List.getElem?_zip_eq_some.2 ⟨List.getElem?_zip_eq_some.2 ⟨h1, h2⟩, h3⟩
        rw [e]
        cases convert <;> rfl

theorem readObj_of_data {ls : List ObjLine} {convert : Bool} {r : ObjResult} (h : readObj T ls convert = .ok r) :
    ∃ d, readObjData T ls convert = .ok d ∧ r.faces = d.faces := by
  unfold readObj at h
  obtain ⟨d, hd, h⟩ := Res.unbind h
  cases h
  exact ⟨d, hd, rfl⟩

/-- the indices of a file with some other polygon are among its vertices -/
theorem readObjData_range {ls : List ObjLine} {convert : Bool} {d : ObjData} (h : readObjData T ls convert = .ok d)
    (hn : ¬ ∀ f ∈ objPolygons ls, PlainTriangle f) :
    (∀ f ∈ d.faces, f.Below d.vertices.length) ∧ d.texcoords.length = d.vertices.length ∧
      d.normals.length = d.vertices.length ∧
      ∀ f ∈ objPolygons ls, FaceOk (objPositions T ls).length (objTexcoords T ls).length (objNormals T ls).length f := by
  rw [readObjData_eq] at h
  obtain ⟨r, hr, h⟩ := Res.unbind h
  have hh := ObjReader.lines_holds ls [] {} r (ObjReader.start_holds T) hr
  rw [List.nil_append] at hh
  split at h
  · cases h
  rw [if_pos (by
    cases hb : r.normalize
    · exact absurd (hh.normalize.1 hb) hn
    · rfl)] at h
  obtain ⟨⟨corners, triangles⟩, ht, h⟩ := Res.unbind h
  obtain ⟨vs, hv, h⟩ := Res.unbind h
  obtain ⟨tcs, htc, h⟩ := Res.unbind h
  obtain ⟨ns, hns, h⟩ := Res.unbind h
  cases h
  obtain ⟨-, -, -, hlt, -⟩ := C56_triangles ht
  have l1 : vs.length = corners.length := by
    have := congrArg List.length (mapM_get_spec _ _ _ _ hv); simpa using this
  have l2 : tcs.length = corners.length := by
    have := congrArg List.length (mapM_get_spec _ _ _ _ htc); simpa using this
  have l3 : ns.length = corners.length := by
    have := congrArg List.length (mapM_get_spec _ _ _ _ hns); simpa using this
  refine ⟨?_, by rw [l1, l2], by rw [l1, l3], ?_⟩
  · intro f hf
    obtain ⟨t, ht, rfl⟩ := List.mem_map.1 hf
    obtain ⟨b1, b2, b3⟩ := hlt t ht
    simp only [Face.Below]
    omega
  · have := C56_accepts.1 ⟨_, ht⟩
    have k1 := congrArg List.length hh.vertices
    have k2 := congrArg List.length hh.texcoords
    have k3 := congrArg List.length hh.normals
    rw [List.length_map] at k1 k2 k3
    rw [← hh.faces, ← k1, ← k2, ← k3]
    exact this

/-- **C86**: a file with a face that is no plain triangle is read only if all its faces can be used. -/
theorem C86_checked (ls : List ObjLine) (convert : Bool) (m : WasmMesh) (h : objToMesh T ls convert = .ok m)
    (hn : ¬ ∀ f ∈ objPolygons ls, PlainTriangle f) :
    ∀ f ∈ objPolygons ls, FaceOk (objPositions T ls).length (objTexcoords T ls).length (objNormals T ls).length f := by
  obtain ⟨r, hr, -⟩ := Res.unbind h
  obtain ⟨d, hd, -⟩ := readObj_of_data hr
  exact (readObjData_range hd hn).2.2.2

theorem flatMap_same {α β : Type} {f g : α → List β} : ∀ {l : List α}, (∀ a ∈ l, f a = g a) → l.flatMap f = l.flatMap g
  | [], _ => rfl
  | a :: l, h => by
    rw [List.flatMap_cons, List.flatMap_cons, h a List.mem_cons_self,
      flatMap_same fun x hx => h x (List.mem_cons_of_mem _ hx)]

/-- **C86**: if the faces of a file can be used (`C86_checked`), the mesh shows what they name: going through its
indices gives the corners of the triangles of all polygons of the file, each with the position, texture coordinates and
direction it names, converted if wanted. All indices are among the vertices. -/
theorem C86_geometry (ls : List ObjLine) (convert : Bool) (m : WasmMesh) (h : objToMesh T ls convert = .ok m)
    (hok : ∀ f ∈ objPolygons ls,
      FaceOk (objPositions T ls).length (objTexcoords T ls).length (objNormals T ls).length f)
    (hsize : m.positions.length ≤ 3 * 2 ^ 32) :
    m.indices.map (fun i => m.vertex i.toNat) = (fanCorners ls convert).map (namedVertex T ls convert) ∧
      ∀ i ∈ m.indices, i.toNat < m.positions.length / 3 := by
  unfold objToMesh at h
  obtain ⟨r, hr, h⟩ := Res.unbind h
  cases h
  obtain ⟨d, hd, hfaces⟩ := readObj_of_data hr
  have hdesc := WasmMesh.of_describes r.name r.finalVertices r.faces
  have hlen : (WasmMesh.of r.name r.finalVertices r.faces).positions.length = 3 * r.finalVertices.length :=
    flatten3_length Vertex.x Vertex.y Vertex.z r.finalVertices
  rw [hlen] at hsize ⊢
  rw [Nat.mul_div_cancel_left _ (by decide : 0 < 3)]
  have hvx := fun i => (hdesc.vertex i).trans (readObj_vertex hd hr i)
  have hind : (WasmMesh.of r.name r.finalVertices r.faces).indices
      = d.faces.flatMap fun f => [f.i0, f.i1, f.i2].map wasmIndex := by rw [← hfaces]; rfl
  have hlt : ∀ i, (objVertex convert d.vertices[i]? d.texcoords[i]? (d.normals[i]?.map fun n => (n.x, n.y, n.z))).isSome
      = true → i < r.finalVertices.length := by
    intro i hi
    rw [← readObj_vertex hd hr i] at hi
    rcases Nat.lt_or_ge i r.finalVertices.length with h | h
    · exact h
    · rw [List.getElem?_eq_none h] at hi; cases hi
  rw [hind, List.map_flatMap]
  by_cases hn : ∀ f ∈ objPolygons ls, PlainTriangle f
  · obtain ⟨p1, p2, p3, p4⟩ := C56_plain hd hn
    have l1 := congrArg List.length p1
    have l2 := congrArg List.length p2
    have l3 := congrArg List.length p3
    rw [List.length_map] at l1 l2 l3
    -- what one corner shows
    have key : ∀ f ∈ objPolygons ls, ∀ c ∈ f, c.v - 1 < r.finalVertices.length ∧
        (wasmIndex (((c.v % 2 ^ 32 : Nat) : Int) - 1)).toNat = c.v - 1 ∧
        objVertex convert d.vertices[c.v - 1]? d.texcoords[c.v - 1]? (d.normals[c.v - 1]?.map fun n => (n.x, n.y, n.z))
          = namedVertex T ls convert (some (c.v - 1, c.vt - 1, c.vn - 1)) := by
      intro f hf c hc
      obtain ⟨⟨a1, a2⟩, ⟨b1, b2⟩, ⟨c1, c2⟩⟩ := (hok f hf).2 c hc
      obtain ⟨e1, e2⟩ := (hn f hf).2 c hc
      have g1 : c.v - 1 < d.vertices.length := by omega
      have g2 : c.v - 1 < d.texcoords.length := by omega
      have g3 : c.v - 1 < d.normals.length := by omega
      have hl : c.v - 1 < r.finalVertices.length := by
        apply hlt
        rw [List.getElem?_eq_getElem g1, List.getElem?_eq_getElem g2, List.getElem?_eq_getElem g3]
        cases convert <;> rfl
      refine ⟨hl, ?_, ?_⟩
      · unfold wasmIndex
        rw [UInt32.toNat_ofNat']
        omega
      · unfold namedVertex
        simp only [Option.bind_some]
        rw [← e1, ← e2, ← p1, ← p2, ← p3, List.getElem?_map, List.getElem?_map, List.getElem?_map,
          List.getElem?_eq_getElem g1, List.getElem?_eq_getElem g2, List.getElem?_eq_getElem g3]
        rfl
    have hfl : ∀ {γ : Type} (q : Int → γ), (d.faces.flatMap fun f => [f.i0, f.i1, f.i2].map q)
        = (objPolygons ls).flatMap fun f => (if convert then f.reverse else f).map
          fun c => q (((c.v % 2 ^ 32 : Nat) : Int) - 1) := by
      intro γ q
      have := congrArg (fun l : List (List Int) => l.flatMap fun x => x.map q) p4
      simp only [List.flatMap_map, List.map_map] at this
      exact this
    constructor
    · rw [show (d.faces.flatMap fun a => List.map
          (fun i => (WasmMesh.of r.name r.finalVertices r.faces).vertex i.toNat) (List.map wasmIndex [a.i0, a.i1, a.i2]))
          = d.faces.flatMap fun f => [f.i0, f.i1, f.i2].map
            fun i => (WasmMesh.of r.name r.finalVertices r.faces).vertex (wasmIndex i).toNat from rfl, hfl]
      unfold fanCorners
      rw [List.flatMap_assoc, List.map_flatMap]
      apply flatMap_same
      intro f hf
      have hrev : ∀ c ∈ (if convert then f.reverse else f), c ∈ f := by
        cases convert
        · exact fun _ h => h
        · exact fun c h => List.mem_reverse.1 h
      have e : ((fanTriangles (faceCorners convert f)).flatMap fun t => [t.1, t.2.1, t.2.2])
          = (if convert then f.reverse else f).map fun c => some (c.v - 1, c.vt - 1, c.vn - 1) := by
        match f, (hn f hf).1 with
        | [a, b, c], _ => cases convert <;> rfl
      rw [e, List.map_map]
      apply List.map_congr_left
      intro c hc
      obtain ⟨-, k2, k3⟩ := key f hf c (hrev c hc)
      rw [k2, hvx, k3]
      rfl
    · intro i hi
      rw [hfl] at hi
      obtain ⟨f, hf, hi⟩ := List.mem_flatMap.1 hi
      obtain ⟨c, hc, rfl⟩ := List.mem_map.1 hi
      have hc' : c ∈ f := by
        cases convert
        · exact hc
        · exact List.mem_reverse.1 hc
      obtain ⟨k1, k2, -⟩ := key f hf c hc'
      rw [k2]; exact k1
  · obtain ⟨q1, q2, q3, -⟩ := readObjData_range hd hn
    have hfl : r.finalVertices.length = d.vertices.length := by
      unfold readObj at hr
      rw [hd] at hr
      cases hr
      simp only [List.length_map, List.length_zip]
      omega
    have key : ∀ f ∈ d.faces, ∀ i ∈ [f.i0, f.i1, f.i2], (wasmIndex i).toNat = i.toNat ∧ i.toNat < d.vertices.length := by
      intro f hf i hi
      obtain ⟨a1, a2, b1, b2, c1, c2⟩ := q1 f hf
      have hi2 : 0 ≤ i ∧ i < d.vertices.length := by
        simp only [List.mem_cons, List.not_mem_nil, or_false] at hi
        rcases hi with rfl | rfl | rfl <;> exact ⟨by assumption, by assumption⟩
      have := wasmIndex_toNat hi2.1 (by omega)
      omega
    constructor
    · have hg := congrArg (fun l => l.flatMap fun x : List (Option (F32 × F32 × F32) × Option (F32 × F64) ×
        Option (F32 × F32 × F32)) => x.map fun y => objVertex convert y.1 y.2.1 y.2.2) (C56_geometry hd hn)
      simp only [List.flatMap_map] at hg
      unfold fanCorners
      rw [List.map_flatMap]
      refine Eq.trans ?_ hg
      apply flatMap_same
      intro f hf
      rw [List.map_map, List.map_map]
      apply List.map_congr_left
      intro i hi
      simp only [Function.comp_apply]
      rw [(key f hf i hi).1, hvx]
    · intro i hi
      obtain ⟨f, hf, hi⟩ := List.mem_flatMap.1 hi
      obtain ⟨j, hj, rfl⟩ := List.mem_map.1 hi
      rw [(key f hf j hj).1, hfl]
      exact (key f hf j hj).2

/-- **C86**: without a face of another kind the numbers of the faces are not checked: a file with one vertex and a
triangle of the vertices 7, 8 and 9 is read without an error, as a mesh with indices that are not among its vertices. -/
theorem C86_unchecked_counterexample : ∃ m, objToMesh byteText
    [.object "a".toList, .v (byteText.show32 0) (byteText.show32 0) (byteText.show32 0),
      .vt (byteText.show32 0) (byteText.show32 0), .vn (byteText.show32 0) (byteText.show32 0) (byteText.show32 0),
      .f [(7, some 7, some 7), (8, some 8, some 8), (9, some 9, some 9)]] false = .ok m ∧
    m.positions = [0, 0, 0] ∧ m.indices = [6, 7, 8] :=
  ⟨⟨"a".toList, [0, 0, 0], [0, 0], [0, 0, 0], [6, 7, 8]⟩, by decide +kernel, rfl, rfl⟩

/-! ### The middle of a mesh -/

section
open Scene

theorem axisBounds_parts [Arith] : ∀ (xs : List F32) (a b : F32),
    xs.foldl (fun (b : F32 × F32) x => (if Arith.lt x b.1 then x else b.1, if Arith.lt b.2 x then x else b.2)) (a, b)
      = (xs.foldl (fun a x => if Arith.lt x a then x else a) a, xs.foldl (fun b x => if Arith.lt b x then x else b) b)
  | [], _, _ => rfl
  | x :: xs, a, b => by
    rw [List.foldl_cons, List.foldl_cons, List.foldl_cons]
    exact axisBounds_parts xs _ _

/-- nothing but infinity is not less than it -/
theorem not_less_inf {x : F32} (hx : x.isNaN = false) (h : ieeeLt x 0x7f800000 = false) : x = 0x7f800000 := by
  unfold ieeeLt at h
  rw [hx] at h
  have e1 : F32.isNaN 0x7f800000 = false := by decide
  have e2 : F32.isInf 0x7f800000 = true := by decide
  have e3 : F32.isNeg 0x7f800000 = false := by decide
  rw [e1, e2, e3] at h
  cases hi : x.isInf
  · rw [hi] at h; simp at h
  · cases hn : x.isNeg
    · unfold F32.isInf at hi
      unfold F32.isNeg at hn
      apply UInt32.toNat_inj.1
      have : (0x7f800000 : F32).toNat = 0x7f800000 := by decide
      simp at hi hn
      omega
    · rw [hi, hn] at h; simp at h

theorem not_less_neg_inf {x : F32} (hx : x.isNaN = false) (h : ieeeLt 0xff800000 x = false) : x = 0xff800000 := by
  unfold ieeeLt at h
  rw [hx] at h
  have e1 : F32.isNaN 0xff800000 = false := by decide
  have e2 : F32.isInf 0xff800000 = true := by decide
  have e3 : F32.isNeg 0xff800000 = true := by decide
  rw [e1, e2, e3] at h
  cases hi : x.isInf
  · rw [hi] at h; simp at h
  · cases hn : x.isNeg
    · rw [hi, hn] at h; simp at h
    · unfold F32.isInf at hi
      unfold F32.isNeg at hn
      apply UInt32.toNat_inj.1
      have : (0xff800000 : F32).toNat = 0xff800000 := by decide
      have := x.toNat_lt
      simp at hi hn
      omega

theorem axisBounds_spec (sin cos : F32 → F32) (pow : F32 → F32 → F32) (xs : List F32) (h0 : xs ≠ [])
    (hn : ∀ x ∈ xs, x.isNaN = false) :
    letI := ieee sin cos pow
    IsLeastOf (axisBounds xs).1 xs ∧ IsGreatestOf (axisBounds xs).2 xs := by
  let _ := ieee sin cos pow
  have e : axisBounds xs = (xs.foldl (fun a x => if ieeeLt x a then x else a) 0x7f800000,
    xs.foldl (fun b x => if ieeeLt b x then x else b) 0xff800000) := axisBounds_parts xs _ _
  rw [e]
  constructor
  · obtain ⟨h1, h2⟩ := best_of_fold (better := ieeeLt) (g := fun a x => if ieeeLt x a then x else a)
      (fun _ _ _ _ => rfl) (fun a ha => (ieeeLt_order ha ha ha).1)
      (fun a b ha hb => (ieeeLt_order ha hb ha).2.1) (fun a b c ha hb hc => (ieeeLt_order ha hb hc).2.2) (l := xs)
      (start := 0x7f800000) (by decide) hn
    refine ⟨?_, fun x hx => h2 x (List.mem_cons_of_mem _ hx)⟩
    rcases List.mem_cons.1 h1 with e | h1
    · obtain ⟨x, hx⟩ := List.exists_mem_of_ne_nil xs h0
      have := h2 x (List.mem_cons_of_mem _ hx)
      rw [e] at this
      rw [e, ← not_less_inf (hn x hx) this]
      exact hx
    · exact h1
  · obtain ⟨h1, h2⟩ := best_of_fold (better := fun a b => ieeeLt b a) (g := fun a x => if ieeeLt a x then x else a)
      (fun _ _ _ _ => rfl) (fun a ha => (ieeeLt_order ha ha ha).1)
      (fun a b ha hb => (ieeeLt_order hb ha ha).2.1)
      (fun a b c ha hb hc h1 h2 => (ieeeLt_order ha hc hb).2.2 h2 h1) (l := xs) (start := 0xff800000) (by decide) hn
    refine ⟨?_, fun x hx => h2 x (List.mem_cons_of_mem _ hx)⟩
    rcases List.mem_cons.1 h1 with e | h1
    · obtain ⟨x, hx⟩ := List.exists_mem_of_ne_nil xs h0
      have := h2 x (List.mem_cons_of_mem _ hx)
      rw [e] at this
      rw [e, ← not_less_neg_inf (hn x hx) this]
      exact hx
    · exact h1

/-- **C86**: the midpoint is, for each axis, half the sum of the least and the greatest coordinate; that of a mesh without
vertices is the origin. -/
theorem C86_midpoint (sin cos : F32 → F32) (pow : F32 → F32 → F32) (vs : List Vertex)
    (ts : List (UInt32 × UInt32 × UInt32)) (m : WasmMesh)
    (hd : Describes vs ts m.positions m.texCoords m.normals m.indices)
    (hn : ∀ v ∈ vs, v.x.isNaN = false ∧ v.y.isNaN = false ∧ v.z.isNaN = false) :
    letI := ieee sin cos pow
    (vs = [] → m.midpoint = [0, 0, 0]) ∧
    (vs ≠ [] → ∃ x₀ x₁ y₀ y₁ z₀ z₁, IsLeastOf x₀ (vs.map (·.x)) ∧ IsGreatestOf x₁ (vs.map (·.x)) ∧
      IsLeastOf y₀ (vs.map (·.y)) ∧ IsGreatestOf y₁ (vs.map (·.y)) ∧
      IsLeastOf z₀ (vs.map (·.z)) ∧ IsGreatestOf z₁ (vs.map (·.z)) ∧
      m.midpoint = [(x₀, x₁), (y₀, y₁), (z₀, z₁)].map fun b => ieeeMul (ieeeAdd b.1 b.2) 0x3f000000 /- 0.5 -/) := by
  let _ := ieee sin cos pow
  constructor
  · rintro rfl
    unfold WasmMesh.midpoint
    rw [hd.positions]
    rfl
  · intro h0
    have hpos : m.positions.isEmpty = false := by
      rw [hd.positions]
      cases vs with
      | nil => exact absurd rfl h0
      | cons _ _ => rfl
    have hx := axisBounds_spec sin cos pow (vs.map (·.x)) (by simpa using h0)
      (fun x hx => by obtain ⟨v, hv, rfl⟩ := List.mem_map.1 hx; exact (hn v hv).1)
    have hy := axisBounds_spec sin cos pow (vs.map (·.y)) (by simpa using h0)
      (fun x hx => by obtain ⟨v, hv, rfl⟩ := List.mem_map.1 hx; exact (hn v hv).2.1)
    have hz := axisBounds_spec sin cos pow (vs.map (·.z)) (by simpa using h0)
      (fun x hx => by obtain ⟨v, hv, rfl⟩ := List.mem_map.1 hx; exact (hn v hv).2.2)
    refine ⟨_, _, _, _, _, _, hx.1, hx.2, hy.1, hy.2, hz.1, hz.2, ?_⟩
    unfold WasmMesh.midpoint
    rw [hpos, if_neg (by decide), hd.positions, chunks3_flatten Vertex.x Vertex.y Vertex.z]
    simp only [List.map_map]
    rfl

end

/-! ### The shape of primitives without a mesh -/

/-- **C86**: `generate_builtin_primitive` reports an error for fewer than three sides. Otherwise it gives the prism with
that many sides (C69): vertices and triangles with all corners among the vertices. With `draw_textures_inside` there are
twice as many triangles, of the same vertices. -/
theorem C86_builtin [Arith] (sides : UInt32) (inside : Bool) :
    (sides.toNat < 3 → generateBuiltinPrimitive sides inside = .error .io) ∧
    (3 ≤ sides.toNat → ∃ vs ts m, generateBuiltinPrimitive sides inside = .ok m ∧ PrismVertices sides.toNat vs ∧
      Describes vs ts m.positions m.texCoords m.normals m.indices ∧
      (sides.toNat < 2 ^ 30 → ts.map (fun t => (t.1.toNat, t.2.1.toNat, t.2.2.toNat)) = (List.range sides.toNat).flatMap
        fun i => prismSide sides.toNat i ++ if inside then (prismSide sides.toNat i).map Tri.flip else []) ∧
      ts.length = (if inside then 8 else 4) * sides.toNat ∧ ∀ t ∈ ts, CornersBelow vs.length t) := by
  obtain ⟨h1, h2⟩ := C69_prism sides inside
  constructor
  · intro h
    unfold generateBuiltinPrimitive
    rw [h1 h]; rfl
  · intro h
    obtain ⟨vs, hv, hb⟩ := h2 h
    have hrange : ∀ t ∈ ((List.range sides.toNat).flatMap fun i =>
        prismSide sides.toNat i ++ if inside then (prismSide sides.toNat i).map Tri.flip else []),
        t.1 < 4 * sides.toNat + 2 ∧ t.2.1 < 4 * sides.toNat + 2 ∧ t.2.2 < 4 * sides.toNat + 2 := by
      intro t ht
      obtain ⟨i, hi, ht⟩ := List.mem_flatMap.1 ht
      have hin := (C69_indices h).1
      rcases List.mem_append.1 ht with ht | ht
      · exact hin t (List.mem_flatMap.2 ⟨i, hi, ht⟩)
      · cases inside
        · cases ht
        · obtain ⟨u, hu, rfl⟩ := List.mem_map.1 ht
          have := hin u (List.mem_flatMap.2 ⟨i, hi, hu⟩)
          unfold Tri.flip
          dsimp only
          omega
    obtain ⟨fs, hfs⟩ : ∃ fs, fs = ((List.range sides.toNat).flatMap fun i =>
      prismSide sides.toNat i ++ if inside then (prismSide sides.toNat i).map Tri.flip else []).map Tri.face := ⟨_, rfl⟩
    have hg : generateBuiltinPrimitive sides inside = .ok (WasmMesh.of "primitive".toList vs fs) := by
      unfold generateBuiltinPrimitive
      rw [hb, hfs]
      rfl
    refine ⟨vs, _, _, hg, hv, WasmMesh.of_describes "primitive".toList vs fs, ?_, ?_, ?_⟩ <;> subst hfs
    · intro hs
      rw [List.map_map, List.map_map]
      conv => rhs; rw [← List.map_id (List.flatMap _ _)]
      apply List.map_congr_left
      intro t ht
      have := hrange t ht
      have e : ∀ k : Nat, k < 4 * sides.toNat + 2 → (wasmIndex (k : Int)).toNat = k := by
        intro k hk
        unfold wasmIndex
        rw [UInt32.toNat_ofNat']
        omega
      simp only [Function.comp_apply, Tri.face, e _ this.1, e _ this.2.1, e _ this.2.2]
      rfl
    · rw [List.length_map, List.length_map]
      rw [flatMap_range_length (c := if inside then 8 else 4) fun i _ => by cases inside <;> rfl, Nat.mul_comm]
    · intro t ht
      obtain ⟨f, hf, rfl⟩ := List.mem_map.1 ht
      obtain ⟨u, hu, rfl⟩ := List.mem_map.1 hf
      have := hrange u hu
      have e : ∀ k : Nat, k < 4 * sides.toNat + 2 → (wasmIndex (k : Int)).toNat < vs.length := by
        intro k hk
        unfold wasmIndex
        rw [UInt32.toNat_ofNat', hv.count]
        omega
      exact ⟨e _ this.1, e _ this.2.1, e _ this.2.2⟩

/-! ### Tables -/

theorem Files.insert_nodup {fs : Files} (h : (fs.map (·.1)).Nodup) (p : Str) (bs : Bytes) :
    ((fs.insert p bs).map (·.1)).Nodup := by
  unfold Files.insert
  rw [List.map_cons, List.nodup_cons]
  constructor
  · intro hm
    obtain ⟨e, he, h1⟩ := List.mem_map.1 hm
    have := (List.mem_filter.1 he).2
    simp [h1] at this
  · exact h.sublist (List.filter_sublist.map _)

theorem runSteps_nodup : ∀ (steps : List FsStep) (fs : Files), (fs.map (·.1)).Nodup →
    ((runSteps steps fs).2.map (·.1)).Nodup
  | [], fs, h => h
  | .write p bs :: rest, fs, h => runSteps_nodup rest _ (Files.insert_nodup h p bs)
  | .absent p :: rest, fs, h => by
    unfold runSteps
    split
    · exact h
    · exact runSteps_nodup rest fs h
  | .fail e :: _, fs, h => h

/-- what is in a file system with these files written to it -/
theorem get_writeAll : ∀ (files : List (Str × Bytes)) (fs : Files) (p : Str), (files.map (·.1)).Nodup →
    (files.foldl (fun (fs : Files) f => fs.insert f.1 f.2) fs).get p
      = if p ∈ files.map (·.1) then Files.get files p else fs.get p
  | [], fs, p, _ => by simp
  | f :: files, fs, p, h => by
    rw [List.map_cons, List.nodup_cons] at h
    rw [List.foldl_cons, get_writeAll files _ p h.2, Files.get_insert]
    have hc : Files.get (f :: files) p = if f.1 = p then some f.2 else Files.get files p := by
      unfold Files.get
      rw [List.find?_cons]
      by_cases e : f.1 = p
      · have : (f.1 == p) = true := by simpa using e
        rw [this, if_pos e]; rfl
      · have : (f.1 == p) = false := by simpa using e
        rw [this, if_neg e]
    rw [hc, List.map_cons]
    by_cases e : f.1 = p
    · subst e
      rw [if_neg h.1, if_pos rfl, if_pos List.mem_cons_self, if_pos rfl]
    · rw [if_neg e, if_neg e]
      by_cases hm : p ∈ files.map (·.1)
      · rw [if_pos hm, if_pos (List.mem_cons_of_mem _ hm)]
      · rw [if_neg hm, if_neg]
        intro h
        rcases List.mem_cons.1 h with h | h
        · exact e h.symm
        · exact hm h

theorem get_mem {files : Files} (h : (files.map (·.1)).Nodup) {p : Str} {bs : Bytes} :
    Files.get files p = some bs ↔ (p, bs) ∈ files := by
  induction files with
  | nil => simp [Files.get]
  | cons f files ih =>
    rw [List.map_cons, List.nodup_cons] at h
    unfold Files.get
    rw [List.find?_cons]
    by_cases e : f.1 = p
    · have hb : (f.1 == p) = true := by simpa using e
      rw [hb]
      subst e
      constructor
      · intro he
        cases he
        exact List.mem_cons_self
      · intro hm
        rcases List.mem_cons.1 hm with hm | hm
        · rw [← hm]; rfl
        · exact absurd (List.mem_map_of_mem (f := (·.1)) hm) h.1
    · have hb : (f.1 == p) = false := by simpa using e
      rw [hb]
      have : Files.get files p = some bs ↔ (p, bs) ∈ files := ih h.2
      unfold Files.get at this
      rw [this, List.mem_cons]
      constructor
      · exact Or.inr
      · rintro (rfl | hm)
        · exact absurd rfl e
        · exact hm

theorem get_writeAll_perm {files fs : List (Str × Bytes)} (hp : files.Perm fs) (hn : (fs.map (·.1)).Nodup) (p : Str) :
    (files.foldl (fun (fs : Files) f => fs.insert f.1 f.2) []).get p = Files.get fs p := by
  have hn' : (files.map (·.1)).Nodup := (hp.map _).nodup_iff.2 hn
  rw [get_writeAll files [] p hn']
  have e : Files.get files p = Files.get fs p := by
    apply Option.ext
    intro bs
    rw [get_mem hn', get_mem hn, hp.mem_iff]
  by_cases hm : p ∈ files.map (·.1)
  · rw [if_pos hm, e]
  · rw [if_neg hm, ← e]
    cases hg : Files.get files p with
    | none => rfl
    | some bs => exact absurd (List.mem_map_of_mem (f := (·.1)) ((get_mem hn').1 hg)) hm

/-- the table is restored from any file system with the same files -/
theorem table_restored_from (E : ExpandEnv) (S : StdText E.T) (fmt : MeshFormat) (root : Str) (t : VPX) (fs fs' fs'' : Files)
    (ht : t.Expandable E fmt) (hdir : EmptyDir root fs) (he : expand E fmt root t fs = (.ok (), fs'))
    (hsame : ∀ p, fs''.get p = fs'.get p) : ∃ t', assemble E root fs'' = .ok t' ∧ SameTable E t t' := by
  obtain ⟨d, hd⟩ := ht.gamedata.code
  have hcode : t.gamedata.code.toBytes = .ok d := by rw [hd]; exact C05_script_bytes_preserved d
  obtain ⟨stems, h1, h2, h3⟩ := stems_of E ht.items
  have hw := writesOf_table E root h1 h3 ht.imageNames ht.soundNames ht.fontNames hcode
  have hfs := runSteps_ok _ _ _ he
  rw [hw] at hfs
  have he' := he
  unfold expand expandSteps tableSteps at he'
  obtain ⟨f9, he', -⟩ := runSteps_append _ _ _ _ he'
  obtain ⟨f8, he', -⟩ := runSteps_append _ _ _ _ he'
  obtain ⟨f7, he', -⟩ := runSteps_append _ _ _ _ he'
  obtain ⟨f6, he', -⟩ := runSteps_append _ _ _ _ he'
  obtain ⟨f5, he', hsnd⟩ := runSteps_append _ _ _ _ he'
  obtain ⟨f4, he', himg⟩ := runSteps_append _ _ _ _ he'
  rw [writeImages_eq E root _ ht.imageNames] at himg
  rw [writeSounds_eq E root _ ht.soundNames] at hsnd
  have hg := tableSegs_grouped E (code := d) h3 (guardedFiles_nodup himg) (guardedFiles_nodup hsnd) ht.fontsDiffer
  have hdh := dirHas_of hg hdir
  rw [← hfs] at hdh
  exact assemble_back E S ht hd h2 h3 ⟨hdh.grouped, fun s hs w hw => by rw [hsame]; exact hdh.there s hs w hw,
    fun f hf => by rw [hsame]; exact hdh.other f hf⟩

/-- **C87**: a table whose image files and sound files have different names is extracted, and the files, given to
`assemble` in any order, are assembled to the same table, which is then written; if it can be stored (C22), reading it
gives that table. -/
theorem C87_extract_assemble (V : Env) (E : ExpandEnv) (S : StdText E.T) (c : Cfb) (t : VPX)
    (hr : VPX.read V c = .ok t) (ht : t.Expandable E .Obj) (hi : (imageFiles E t.images).Nodup)
    (hs : (soundFiles E t.sounds).Nodup) :
    ∃ files, extractFiles V E c = .ok files ∧ (files.map (·.1)).Nodup ∧ ∀ files', files'.Perm files →
      ∃ t', SameTable E t t' ∧ assembleFiles V E files' = t'.write V ∧
        (t'.WF V → ∃ c' t'', assembleFiles V E files' = .ok c' ∧ VPX.read V c' = .ok t'' ∧ t'.Same t'') := by
  have hdir : EmptyDir wasmRoot [] := fun _ => rfl
  obtain ⟨fs, he⟩ := C57_expand_succeeds E .Obj wasmRoot t [] ht hdir hi hs
  have hn : (fs.map (·.1)).Nodup := by
    have := runSteps_nodup (expandSteps E .Obj wasmRoot t) [] List.nodup_nil
    unfold expand at he
    rw [he] at this
    exact this
  refine ⟨fs, ?_, hn, ?_⟩
  · unfold extractFiles
    rw [hr]
    simp only [bind, Except.bind]
    rw [he]
    rfl
  · intro files' hp
    obtain ⟨t', h1, h2⟩ := table_restored_from E S .Obj wasmRoot t [] fs _ ht hdir he (get_writeAll_perm hp hn)
    have ha : assembleFiles V E files' = t'.write V := by
      unfold assembleFiles
      dsimp only
      rw [h1]
      rfl
    refine ⟨t', h2, ha, fun hw => ?_⟩
    obtain ⟨c', t'', w1, w2, w3⟩ := C22_table_roundtrip V t' hw
    exact ⟨c', t'', ha.trans w1, w2, w3⟩

/-- **C87**: every file of the result is below `/vpx`. -/
theorem C87_below_root (V : Env) (E : ExpandEnv) (c : Cfb) (t : VPX) (files : Files) (hr : VPX.read V c = .ok t)
    (h1 : ∀ f ∈ imageFiles E t.images, '/' ∉ f) (h2 : ∀ f ∈ soundFiles E t.sounds, '/' ∉ f)
    (h3 : ∀ f ∈ fontFiles E t.fonts, '/' ∉ f) (h : extractFiles V E c = .ok files) :
    ∀ f ∈ files, InExpandedDir "/vpx".toList f.1 := by
  intro f hf
  unfold extractFiles at h
  rw [hr] at h
  simp only [bind, Except.bind] at h
  have hn := runSteps_nodup (expandSteps E .Obj wasmRoot t) [] List.nodup_nil
  change ((expand E .Obj wasmRoot t []).2.map (·.1)).Nodup at hn
  have hc := C58_only_in_directory E .Obj wasmRoot t [] h1 h2 h3 f.1
  rcases he : expand E .Obj wasmRoot t [] with ⟨r, fs⟩
  rw [he] at h hn hc
  have : fs = files := by
    cases r with
    | ok u => exact Except.ok.inj h
    | error e => cases h
  subst this
  refine hc ?_
  rw [(get_mem hn).2 hf]
  exact fun e => nomatch e

end Vpin
