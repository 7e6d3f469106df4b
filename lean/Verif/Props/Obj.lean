import Verif.Lemmas.Flip
import Verif.Props.Mesh
/-
C52: a mesh survives being written as an OBJ file and read again.
C53: the flipped V coordinate is exact when the writer says so.
C54: animation frames as OBJ files.
-/
namespace Vpin
variable {T : FloatText}

/-- **C53** If the writer takes the text of the V coordinate for exact, reading it gives the same bits. -/
theorem C53_flip_exact (S : StdText T) (tv : F32) (h : (flippedV T tv).2 = true) :
    ∃ v, T.parse64 (flippedV T tv).1 = some v ∧ v.oneMinus.toF32 = tv := by
  have := flippedV_exact S h
  unfold recovers at this
  split at this
  · next v hv => exact ⟨v, hv, of_decide_eq_true this⟩
  · cases this

/-- **C53** Between one half and two the writer does not check the text at all; it is exact nevertheless. -/
theorem C53_flip_unchecked_range (S : StdText T) (tv : F32) (h1 : 0x3f000000 ≤ tv) (h2 : tv ≤ 0x40000000) :
    (flippedV T tv).2 = true ∧ (flippedV T tv).1 = T.show32 tv.toF64.oneMinus.toF32 ∧
      ∃ v, T.parse64 (T.show32 tv.toF64.oneMinus.toF32) = some v ∧ v.oneMinus.toF32 = tv := by
  have hn : tv.isNaN = false := by
    have h2 : tv.toNat ≤ 0x40000000 := UInt32.le_iff_toNat_le.1 h2
    unfold F32.isNaN
    simp only [decide_eq_false_iff_not]; omega
  have e : flippedV T tv = (T.show32 tv.toF64.oneMinus.toF32, true) := by
    unfold flippedV
    rw [hn]
    dsimp only
    rw [if_neg (by simp), if_pos ⟨h1, h2⟩]
  have h := C53_flip_exact S tv (by rw [e])
  rw [e] at h ⊢
  exact ⟨rfl, rfl, h⟩

/-- **C53** The text of the V coordinate can always be parsed. -/
theorem C53_flip_parses (S : StdText T) (tv : F32) : ∃ v, T.parse64 (flippedV T tv).1 = some v := flippedV_reads S tv

/-- **C52** A number survives its text unless the f64 that is read lies exactly midway between two neighbouring f32
numbers. Infinities survive, too. -/
theorem C52_number_survives (S : StdText T) (x : F32) (hx : x.isNaN = false)
    (hm : ∀ v, x.isFinite = true → T.parse64 (T.show32 x) = some v → ¬ Midway v) : TextExact T x := by
  cases hf : x.isFinite with
  | true =>
    obtain ⟨v, hv⟩ := S.reads x
    exact textExact_finite S hf hv (hm v hf hv)
  | false =>
    unfold F32.isNaN at hx
    unfold F32.isFinite at hf
    have h1 := of_decide_eq_false hx
    have h2 := of_decide_eq_false hf
    have h3 : x.toNat % 0x80000000 = 0x7f800000 := by omega
    have hlt := x.toNat_lt
    have h4 : x.toNat = 0x7f800000 ∨ x.toNat = 0xff800000 := by omega
    rcases h4 with h4 | h4
    · have : x = 0x7f800000 := UInt32.toNat_inj.1 h4
      subst this
      exact ⟨_, S.inf, by decide +kernel⟩
    · have : x = 0xff800000 := UInt32.toNat_inj.1 h4
      subst this
      exact ⟨_, S.negInf, by decide +kernel⟩

/-- **C52** The exception exists: the f32 with bits 0x15ae43fd is the one nearest to its shortest text,
`7038531 / 10^32`. The f64 nearest to this text lies midway between two f32 numbers and is rounded to the other one:
read back, this coordinate differs in the last bit. -/
theorem C52_number_counterexample : f32OfFrac 7038531 (10 ^ 32) = 0x15ae43fd ∧
    Midway (f64OfFrac 7038531 (10 ^ 32)) ∧ (f64OfFrac 7038531 (10 ^ 32)).toF32 = 0x15ae43fe := by
  refine ⟨by decide +kernel, ⟨0x15ae43fd, 0x15ae43fe, by decide +kernel, by decide +kernel, by decide +kernel⟩,
    by decide +kernel⟩

/-- **C52** So a vertex with that coordinate is not restored, although every number in it is finite. -/
theorem C52_vertex_counterexample (S : StdText T)
    (hs : T.parse64 (T.show32 0x15ae43fd) = some (f64OfFrac 7038531 (10 ^ 32))) : ¬ TextExact T 0x15ae43fd := by
  rintro ⟨v, h1, h2⟩
  rw [hs] at h1
  rw [← Option.some.inj h1, C52_number_counterexample.2.2] at h2
  exact absurd h2 (by decide)

/-- The mesh of a primitive is like it was read from a file: for every vertex there are its own 32 bytes. -/
def Mesh.FromFile (m : Mesh) : Prop := ∀ w ∈ m.vertices, w.encoded = w.vertex.bytes

/-- **C52** A mesh written as an OBJ file is read back with the same bytes for every vertex and the same faces. For each
vertex, either one of its numbers is no number, or its printed numbers survive their text
(`C52_number_survives`). -/
theorem C52_mesh_back (S : StdText T) (name : Str) (m : Mesh) (hb : m.FromFile)
    (hf : ∀ f ∈ m.faces, f.Below 4294967295)
    (ht : ∀ w ∈ m.vertices, w.vertex.HasNaN ∨ w.vertex.TextExact T) :
    ∃ r, readObj T (writeObj T name m) true = .ok r ∧ r.encoded = m.vertices.flatMap (·.encoded) ∧
      r.vertices = m.vertices.length ∧ r.faces = m.faces := by
  have hl : ∀ w ∈ m.vertices, w.encoded.length = 32 := fun w hw => by rw [hb w hw]; rfl
  refine ⟨_, readObj_write S name m hl hf, ?_, rfl, rfl⟩
  have : ∀ vs : List VertexWrapper, (∀ w ∈ vs, w ∈ m.vertices) →
      (vs.flatMap fun w => vertexBytes (readBackVertex T w) (readNormal T w).bytes) = vs.flatMap (·.encoded) := by
    intro vs
    induction vs with
    | nil => intro _; rfl
    | cons w vs ih =>
      intro h
      rw [List.flatMap_cons, List.flatMap_cons, ih fun x hx => h x (List.mem_cons_of_mem _ hx)]
      have hw := h w List.mem_cons_self
      rw [vertex_back w (hb w hw)]
      cases hn : needsBytes w.vertex (flippedV T w.vertex.tv).2 with
      | true => exact Or.inl rfl
      | false =>
        unfold needsBytes at hn
        rw [Bool.or_eq_false_iff] at hn
        refine Or.inr ⟨?_, flippedV_exact S (by simpa using hn.2)⟩
        rcases ht w hw with h1 | h1
        · unfold Vertex.HasNaN at h1
          rw [hn.1] at h1; cases h1
        · exact h1
  exact this m.vertices fun _ h => h

theorem readMesh_inv {Z : Zlib} {p : Primitive} {m : Mesh} (h : p.readMesh Z = .ok (some m)) :
    ∃ vd id raw ind, p.compressed_vertices_data = some vd ∧ p.compressed_indices_data = some id ∧
      Z.decompress vd = .ok raw ∧ Z.decompress id = .ok ind ∧ raw.length / 32 = (p.num_vertices.getD 0).toNat ∧
      ind.length / indexWidth (raw.length / 32) = (p.num_indices.getD 0).toNat ∧
      rawVertices (raw.length / 32) raw = .ok m.vertices ∧
      rawFaces (indexWidth (raw.length / 32)) ind = .ok m.faces := by
  unfold Primitive.readMesh at h
  split at h
  · cases h
  · next vd hvd =>
    split at h
    · cases h
    · next id hid =>
      obtain ⟨raw, h1, h⟩ := Res.unbind h
      obtain ⟨ind, h2, h⟩ := Res.unbind h
      have hw : (if raw.length / 32 > maxVertices2 then ind.length / 4 else ind.length / 2)
          = ind.length / indexWidth (raw.length / 32) := by
        unfold indexWidth; split <;> rfl
      dsimp only at h
      rw [hw] at h
      split at h
      · cases h
      · next c1 =>
        split at h
        · cases h
        · next c2 =>
          obtain ⟨vs, h3, h⟩ := Res.unbind h
          obtain ⟨fs, h4, h⟩ := Res.unbind h
          cases h
          exact ⟨vd, id, raw, ind, hvd, hid, h1, h2, Classical.not_not.1 c1, Classical.not_not.1 c2, h3, h4⟩

theorem setMesh_readMesh (Z : Zlib) (p : Primitive) (m : Mesh) (hb : m.FromFile) (hn : m.vertices.length < 4294967296)
    (hi : m.faces.length * 3 < 4294967296) (hf : ∀ f ∈ m.faces, f.Below (256 ^ indexWidth m.vertices.length)) :
    (p.setMesh Z m.vertices.length (m.vertices.flatMap (·.encoded)) m.faces).readMesh Z = .ok (some m) := by
  have hw := indexWidth_cases m.vertices.length
  have l1 : (m.vertices.flatMap (·.encoded)).length / 32 = m.vertices.length := by
    have : ∀ vs : List VertexWrapper, (∀ w ∈ vs, w ∈ m.vertices) → (vs.flatMap (·.encoded)).length = 32 * vs.length := by
      intro vs
      induction vs with
      | nil => intro _; rfl
      | cons w vs ih =>
        intro h
        rw [List.flatMap_cons, List.length_append, ih fun x hx => h x (List.mem_cons_of_mem _ hx),
          hb w (h w List.mem_cons_self), Vertex.bytes_length, List.length_cons]
        omega
    rw [this _ fun _ h => h]; omega
  have l2 : (encodeFaces m.vertices.length m.faces).length = 3 * indexWidth m.vertices.length * m.faces.length :=
    flatMap_length_const _ _ (faceBytes_length hw) m.faces
  have l3 : (encodeFaces m.vertices.length m.faces).length / indexWidth m.vertices.length = m.faces.length * 3 := by
    rw [l2, Nat.mul_assoc, Nat.mul_left_comm, Nat.mul_div_cancel_left _ (by omega)]; omega
  have r1 : rawVertices m.vertices.length (m.vertices.flatMap (·.encoded)) = .ok m.vertices := by
    have := rawVertices_bytes m.vertices [] hb
    rwa [List.append_nil] at this
  have r2 : rawFaces (indexWidth m.vertices.length) (encodeFaces m.vertices.length m.faces) = .ok m.faces := by
    unfold rawFaces
    rw [l3, Nat.mul_div_cancel _ (by omega)]
    have := rawFacesLoop_writeW hw m.faces [] hf
    rwa [List.append_nil] at this
  unfold Primitive.readMesh Primitive.setMesh
  simp only [Z.decompress_compress, bind, Except.bind, l1, Option.getD_some]
  have hw2 : (if m.vertices.length > maxVertices2 then (encodeFaces m.vertices.length m.faces).length / 4
      else (encodeFaces m.vertices.length m.faces).length / 2) = m.faces.length * 3 := by
    rw [← l3]; unfold indexWidth; split <;> rfl
  have n1 : (UInt32.ofNat m.vertices.length).toNat = m.vertices.length := by simp; omega
  have n2 : (UInt32.ofNat (m.faces.length * 3)).toNat = m.faces.length * 3 := by simp; omega
  rw [hw2, n1, n2, if_neg (not_not_intro rfl), if_neg (not_not_intro rfl)]
  simp only [pure, Except.pure]
  rw [r1, r2]

/-- facts about a mesh that was read -/
theorem readMesh_facts {Z : Zlib} {p : Primitive} {m : Mesh} (h : p.readMesh Z = .ok (some m)) :
    m.FromFile ∧ m.vertices.length < 4294967296 ∧ m.faces.length * 3 < 4294967296 ∧
      (∀ f ∈ m.faces, f.Below (256 ^ indexWidth m.vertices.length)) := by
  obtain ⟨vd, id, raw, ind, -, -, -, -, h5, h6, h7, h8⟩ := readMesh_inv h
  obtain ⟨a1, -, a3⟩ := rawVertices_inv _ _ _ h7
  have hw := indexWidth_cases (raw.length / 32)
  obtain ⟨b1, rest, b2, b3⟩ := rawFacesLoop_inv hw _ _ _ h8
  have n1 := (p.num_vertices.getD 0).toNat_lt
  have n2 := (p.num_indices.getD 0).toNat_lt
  refine ⟨a3, by omega, ?_, by rw [a1]; exact b3⟩
  rw [b1, h6]
  have := Nat.div_mul_le_self (p.num_indices.getD 0).toNat 3
  omega

/-- **C52** For a primitive: after writing its mesh as an OBJ file and reading that, the primitive has the same mesh
again. -/
theorem C52_primitive_back (S : StdText T) (Z : Zlib) (name : Str) (p : Primitive) (m : Mesh)
    (hm : p.readMesh Z = .ok (some m)) (hf : ∀ f ∈ m.faces, f.Below 4294967295)
    (ht : ∀ w ∈ m.vertices, w.vertex.HasNaN ∨ w.vertex.TextExact T) :
    ∃ r, readObj T (writeObj T name m) true = .ok r ∧
      (p.setMesh Z r.vertices r.encoded r.faces).readMesh Z = .ok (some m) := by
  obtain ⟨a1, a2, a3, a4⟩ := readMesh_facts hm
  obtain ⟨r, r1, r2, r3, r4⟩ := C52_mesh_back S name m a1 hf ht
  refine ⟨r, r1, ?_⟩
  rw [r2, r3, r4]
  exact setMesh_readMesh Z p m a1 a2 a3 a4

/-- **C52** If the data in the file are whole vertices and whole faces, the same data and counts are in the primitive
again (before compression). -/
theorem C52_data_back (S : StdText T) (Z : Zlib) (name : Str) (p : Primitive) (m : Mesh) (vd id raw ind : Bytes)
    (hm : p.readMesh Z = .ok (some m)) (hf : ∀ f ∈ m.faces, f.Below 4294967295)
    (ht : ∀ w ∈ m.vertices, w.vertex.HasNaN ∨ w.vertex.TextExact T)
    (h1 : p.compressed_vertices_data = some vd) (h2 : p.compressed_indices_data = some id)
    (h3 : Z.decompress vd = .ok raw) (h4 : Z.decompress id = .ok ind)
    (l1 : raw.length % 32 = 0) (l2 : ind.length % (if raw.length / 32 ≤ 65535 then 6 else 12) = 0)
    (hn : p.num_vertices.isSome = true) (hi : p.num_indices.isSome = true) :
    ∃ r, readObj T (writeObj T name m) true = .ok r ∧
      (p.setMesh Z r.vertices r.encoded r.faces).compressed_vertices_data = some (Z.compress raw) ∧
      (p.setMesh Z r.vertices r.encoded r.faces).compressed_indices_data = some (Z.compress ind) ∧
      (p.setMesh Z r.vertices r.encoded r.faces).num_vertices = p.num_vertices ∧
      (p.setMesh Z r.vertices r.encoded r.faces).num_indices = p.num_indices := by
  obtain ⟨a1, a2, a3, a4⟩ := readMesh_facts hm
  obtain ⟨vd', id', raw', ind', g1, g2, g3, g4, g5, g6, g7, g8⟩ := readMesh_inv hm
  rw [h1] at g1; cases g1
  rw [h2] at g2; cases g2
  rw [h3] at g3; cases g3
  rw [h4] at g4; cases g4
  obtain ⟨r, r1, r2, r3, r4⟩ := C52_mesh_back S name m a1 hf ht
  obtain ⟨b1, ⟨rest, b2⟩, b3⟩ := rawVertices_inv _ _ _ g7
  have e1 : m.vertices.flatMap (·.encoded) = raw := by
    have hlen : ∀ vs : List VertexWrapper, (∀ w ∈ vs, w ∈ m.vertices) →
        (vs.flatMap (·.encoded)).length = 32 * vs.length := by
      intro vs
      induction vs with
      | nil => intro _; rfl
      | cons w vs ih =>
        intro h
        rw [List.flatMap_cons, List.length_append, ih fun x hx => h x (List.mem_cons_of_mem _ hx),
          a1 w (h w List.mem_cons_self), Vertex.bytes_length, List.length_cons]
        omega
    have hl := congrArg List.length b2
    rw [List.length_append, hlen _ fun _ h => h, b1] at hl
    have : rest = [] := List.eq_nil_of_length_eq_zero (by omega)
    rw [b2, this, List.append_nil]
  have e2 : encodeFaces m.vertices.length m.faces = ind := by
    rw [b1]
    obtain ⟨fs, f1, f2⟩ := C48_bytes_back (raw.length / 32) ind l2
    rw [g8] at f1
    cases f1
    exact f2
  have hw := indexWidth_cases (raw.length / 32)
  obtain ⟨c1, -, -⟩ := rawFacesLoop_inv hw _ _ _ g8
  refine ⟨r, r1, ?_, ?_, ?_, ?_⟩
  · show some (Z.compress r.encoded) = _
    rw [r2, e1]
  · show some (Z.compress (encodeFaces r.vertices r.faces)) = _
    rw [r3, r4, e2]
  · show some (UInt32.ofNat r.vertices) = _
    obtain ⟨n, hn⟩ := Option.isSome_iff_exists.1 hn
    rw [hn] at g5 ⊢
    rw [r3, b1, g5]
    simp
  · show some (UInt32.ofNat (r.faces.length * 3)) = _
    obtain ⟨n, hi⟩ := Option.isSome_iff_exists.1 hi
    rw [hi] at g6 ⊢
    rw [r4, c1, g6]
    have : (n.toNat) % 3 = 0 := by
      have h6 : (if raw.length / 32 ≤ 65535 then 6 else 12) = 3 * indexWidth (raw.length / 32) := by
        unfold indexWidth maxVertices2; split <;> split <;> omega
      rw [h6] at l2
      have hd : 3 ∣ ind.length / indexWidth (raw.length / 32) := by
        obtain ⟨k, hk⟩ := Nat.dvd_of_mod_eq_zero l2
        refine ⟨k, ?_⟩
        rw [hk, Nat.mul_assoc, Nat.mul_left_comm, Nat.mul_div_cancel_left _ (by omega)]
      rw [g6] at hd
      exact Nat.mod_eq_zero_of_dvd hd
    have e : (some n).getD 0 = n := rfl
    rw [e, Nat.div_mul_cancel (Nat.dvd_of_mod_eq_zero this)]
    simp

/-! ### Animation frames -/

/-- the numbers of a frame's vertex are numbers and survive their text -/
def FrameVertex.TextExact (T : FloatText) (v : FrameVertex) : Prop :=
  Vpin.TextExact T v.x ∧ Vpin.TextExact T v.y ∧ Vpin.TextExact T v.z.neg ∧
  (v.nx.isNaN = false ∧ Vpin.TextExact T v.nx) ∧ (v.ny.isNaN = false ∧ Vpin.TextExact T v.ny) ∧
  (v.nz.isNaN = false ∧ Vpin.TextExact T v.nz.neg)

/-- **C54** A frame of an animation that is written as an OBJ file is read back; vertices beyond those of the mesh are
lost. -/
theorem C54_frame_back (S : StdText T) (name : Str) (m : Mesh) (frame : List FrameVertex)
    (hf : ∀ f ∈ m.faces, f.Below 4294967295) (ht : ∀ v ∈ frame, v.TextExact T) :
    readObjFrame T (writeObj T name ⟨replaceVertices m.vertices frame, m.faces⟩)
      = .ok (frame.take m.vertices.length) := by
  unfold readObjFrame
  rw [readObjData_write S name ⟨replaceVertices m.vertices frame, m.faces⟩ (by
    intro w hw
    obtain ⟨x, -, rfl⟩ := List.mem_map.1 hw
    rfl) hf]
  show Except.ok _ = _
  rw [List.zip_map', List.map_map]
  congr 1
  have : ∀ (vs : List VertexWrapper) (fr : List FrameVertex), (∀ v ∈ fr, v.TextExact T) →
      (replaceVertices vs fr).map (fun w => FrameVertex.mk (T.back w.vertex.x) (T.back w.vertex.y)
        (T.back w.vertex.z.neg).neg (readNormal T w).x (readNormal T w).y (readNormal T w).z.neg)
      = fr.take vs.length := by
    intro vs
    induction vs with
    | nil => intro fr _; rfl
    | cons w vs ih =>
      intro fr h
      cases fr with
      | nil => rfl
      | cons v fr =>
        obtain ⟨t1, t2, t3, ⟨n4, t4⟩, ⟨n5, t5⟩, ⟨n6, t6⟩⟩ := h v List.mem_cons_self
        have ih' := ih fr fun x hx => h x (List.mem_cons_of_mem _ hx)
        rw [List.length_cons, List.take_succ_cons, ← ih']
        show _ :: _ = _
        congr 1
        unfold readNormal
        dsimp only
        rw [n4, n5, n6]
        simp only [Bool.false_eq_true, if_false]
        rw [t1.back, t2.back, t3.back, t4.back, t5.back, t6.back, F32.neg_neg, F32.neg_neg]
  exact this m.vertices frame ht

/-- **C54** All frames of a primitive: after writing and reading them, each one is read again as it was. The compressed
data of a frame must be shorter than 4 GiB. -/
theorem C54_frames_back (S : StdText T) (Z : Zlib) (name : Str) (p : Primitive) (m : Mesh)
    (frames : List (List FrameVertex)) (hf : ∀ f ∈ m.faces, f.Below 4294967295)
    (hl : ∀ fr ∈ frames, fr.length = m.vertices.length) (ht : ∀ fr ∈ frames, ∀ v ∈ fr, v.TextExact T)
    (hz : ∀ fr ∈ frames, (Z.compress (fr.flatMap FrameVertex.bytes)).length < 4294967296) :
    frames.mapM (fun fr => readObjFrame T (writeObj T name ⟨replaceVertices m.vertices fr, m.faces⟩)) = .ok frames ∧
    ∃ datas lens, (p.setFrames Z frames).compressed_animation_vertices_data = some datas ∧
      (p.setFrames Z frames).compressed_animation_vertices_len = some lens ∧
      datas.length = frames.length ∧ lens.length = frames.length ∧
      (datas.zip lens).mapM (fun x => readFrame Z x.1 x.2) = .ok frames := by
  constructor
  · induction frames with
    | nil => rfl
    | cons fr frames ih =>
      rw [List.mapM_cons, C54_frame_back S name m fr hf (ht fr List.mem_cons_self),
        ih (fun x hx => hl x (List.mem_cons_of_mem _ hx)) (fun x hx => ht x (List.mem_cons_of_mem _ hx))
          (fun x hx => hz x (List.mem_cons_of_mem _ hx)),
        ← hl fr List.mem_cons_self, List.take_length]
      rfl
  · refine ⟨_, _, rfl, rfl, by simp, by simp, ?_⟩
    rw [List.map_map, List.zip_map']
    induction frames with
    | nil => rfl
    | cons fr frames ih =>
      have h1 : readFrame Z (Z.compress (fr.flatMap FrameVertex.bytes))
          (UInt32.ofNat (Z.compress (fr.flatMap FrameVertex.bytes)).length) = .ok fr := by
        have hz := hz fr List.mem_cons_self
        unfold readFrame
        rw [if_neg (not_not_intro (by simp; omega)), Z.decompress_compress]
        show readFrameLoop _ _ = _
        have hlen : (fr.flatMap FrameVertex.bytes).length = 24 * fr.length :=
          flatMap_length_const _ _ FrameVertex.bytes_length fr
        rw [hlen, Nat.mul_div_cancel_left _ (by omega)]
        have := readFrameLoop_bytes fr []
        rwa [List.append_nil] at this
      rw [List.map_cons, List.mapM_cons]
      have ih' := ih (fun x hx => hl x (List.mem_cons_of_mem _ hx)) (fun x hx => ht x (List.mem_cons_of_mem _ hx))
          (fun x hx => hz x (List.mem_cons_of_mem _ hx))
      dsimp only [Function.comp] at ih' ⊢
      rw [h1, ih']
      rfl

/-- **C54** A normal that is no number is not kept in a frame: it is read as zero. -/
theorem C54_nan_counterexample (S : StdText T) (h0 : TextExact T 0) (w : VertexWrapper) (v : FrameVertex)
    (hv : v.nx.isNaN = true) (name : Str) :
    ∃ v', readObjFrame T (writeObj T name ⟨replaceVertices [w] [v], []⟩) = .ok [v'] ∧ v'.nx = 0 := by
  unfold readObjFrame
  rw [readObjData_write S name ⟨replaceVertices [w] [v], []⟩ (by
    intro w hw
    obtain ⟨x, -, rfl⟩ := List.mem_map.1 hw
    rfl) (by simp)]
  refine ⟨_, rfl, ?_⟩
  show T.back (if v.nx.isNaN then 0 else v.nx) = 0
  rw [hv]
  exact h0.back

/-! ### Examples -/

/-- Texts for examples: the bytes of a number as characters. -/
def byteText : FloatText where
  show32 x := (le32 x).map fun b => Char.ofNat b.toNat
  show64 x := (le64 x).map fun b => Char.ofNat b.toNat
  showPrec _ x := (le64 x).map fun b => Char.ofNat b.toNat
  parse64 s :=
    let bs := s.map fun c => UInt8.ofNat c.toNat
    if bs.length = 4 then some (F32.toF64 (ofLe32 bs))
    else if bs.length = 8 then some (ofLe64 bs)
    else if s = "NaN".toList then some 0x7ff8000000000000 else none

theorem byteText_map (bs : Bytes) : (bs.map fun b => Char.ofNat b.toNat).map (fun c => UInt8.ofNat c.toNat) = bs := by
  rw [List.map_map]
  have : ∀ b : UInt8, UInt8.ofNat (Char.ofNat b.toNat).toNat = b := by
    intro b
    have hv : b.toNat.isValidChar := Or.inl (by have := b.toNat_lt; omega)
    have : (Char.ofNat b.toNat).toNat = b.toNat := by simp [Char.ofNat, hv, Char.toNat, Char.ofNatAux]
    rw [this]; simp
  simp [Function.comp_def, this]

theorem byteText_show32 (x : F32) : byteText.parse64 (byteText.show32 x) = some x.toF64 := by
  unfold byteText
  dsimp only
  rw [byteText_map, if_pos (le32_length x), ofLe32_le32]

theorem byteText_std : StdText byteText where
  reads x := ⟨_, byteText_show32 x⟩
  reads64 x := by
    refine ⟨x, ?_⟩
    unfold byteText
    dsimp only
    rw [byteText_map, if_neg (by rw [le64_length]; decide), if_pos (le64_length x), ofLe64_le64]
  nan := ⟨0x7ff8000000000000, by decide +kernel⟩
  finite x hx := by
    refine ⟨x.mag, 2 ^ 149, Nat.two_pow_pos _, ?_, ?_⟩
    · have hlt : x.abs.toNat < 0x7f800000 := by
        rw [F32.abs_toNat]
        unfold F32.isFinite at hx
        exact of_decide_eq_true hx
      have hm : x.mag = bitsMag 0x800000 x.abs.toNat := by rw [F32.abs_toNat]; exact F32.mag_eq x
      have h1 := roundBits_le_of (p := 24) (q := 149) (inf := 0x7f800000) (n := x.mag) (d := 2 ^ 149) (y := x.abs.toNat)
        (by decide) (Nat.two_pow_pos _) (by rw [hm]; exact Nat.le_refl _)
      have h2 := roundBits_ge_of (p := 24) (q := 149) (inf := 0x7f800000) (n := x.mag) (d := 2 ^ 149) (y := x.abs.toNat)
        (by decide) (Nat.two_pow_pos _) (by omega) (by rw [hm]; exact Nat.le_refl _)
      apply UInt32.toNat_inj.1
      rw [f32OfFrac_toNat]
      omega
    · rw [byteText_show32]
      unfold F32.toF64 signBit
      have h1 : x.isNaN = false := by
        unfold F32.isNaN; unfold F32.isFinite at hx
        have := of_decide_eq_true hx
        simp only [decide_eq_false_iff_not]; omega
      have h2 : x.isInf = false := by
        unfold F32.isInf; unfold F32.isFinite at hx
        have := of_decide_eq_true hx
        simp only [beq_eq_false_iff_ne]; omega
      rw [h1, h2]
      rfl
  inf := by rw [byteText_show32]; decide +kernel
  negInf := by rw [byteText_show32]; decide +kernel
  half := by rw [byteText_show32]; decide +kernel

def sampleVertex : Vertex := ⟨0x3f800000, 0xc0000000, 0x80000000, 0, 0x3f000000, 0xbf800000, 0x3e99999a, 0x3dcccccd⟩
def nanVertex : Vertex := ⟨0x3f800000, 0, 0, 0xffd15d71, 0, 0, 0, 0x3f000000⟩
def sampleMesh : Mesh := ⟨[⟨sampleVertex.bytes, sampleVertex⟩, ⟨nanVertex.bytes, nanVertex⟩], [⟨0, 1, 0⟩, ⟨1, 1, 0⟩]⟩
def samplePrimitive : Primitive := Primitive.default.setMesh plainZlib 2 (sampleVertex.bytes ++ nanVertex.bytes) sampleMesh.faces

theorem sampleMesh_ok : sampleMesh.FromFile ∧ (∀ f ∈ sampleMesh.faces, f.Below 4294967295) ∧
    (∀ w ∈ sampleMesh.vertices, w.vertex.HasNaN ∨ w.vertex.TextExact byteText) := by
  refine ⟨?_, ?_, ?_⟩
  · intro w hw
    rcases List.mem_cons.1 hw with rfl | hw
    · rfl
    · rcases List.mem_cons.1 hw with rfl | hw
      · rfl
      · cases hw
  · intro f hf
    unfold sampleMesh at hf
    simp only [List.mem_cons, List.not_mem_nil, or_false] at hf
    rcases hf with rfl | rfl <;> (unfold Face.Below; decide)
  · intro w hw
    have e : ∀ x : F32, x.toF64.toF32 = x → TextExact byteText x := fun x h => ⟨_, byteText_show32 x, h⟩
    unfold sampleMesh at hw
    simp only [List.mem_cons, List.not_mem_nil, or_false] at hw
    rcases hw with rfl | rfl
    · right
      refine ⟨e _ ?_, e _ ?_, e _ ?_, e _ ?_, e _ ?_, e _ ?_, e _ ?_⟩ <;> decide +kernel
    · left; unfold Vertex.HasNaN; decide +kernel

/-- the sample is a primitive whose mesh can be read -/
example : samplePrimitive.readMesh plainZlib = .ok (some sampleMesh) := by decide +kernel
/-- and reading the OBJ file really gives it back -/
example : (readObj byteText (writeObj byteText "a".toList sampleMesh) true).toOption.map (·.encoded)
    = some (sampleVertex.bytes ++ nanVertex.bytes) := by decide +kernel
/-- a V coordinate that is exact with more digits only, and one that is never exact -/
example : (flippedV byteText 0x3dcccccd).2 = true ∧ (flippedV byteText 0x00000001).2 = false := by decide +kernel

end Vpin
