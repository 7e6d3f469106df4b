import Verif.Lemmas.Gltf
import Verif.Lemmas.JsonSample
import Verif.Props.Obj
/-!
C55: meshes as glTF files.
-/
namespace Vpin

variable (JT : JsonText)

theorem readExact_append (a b : Bytes) (n : Nat) (h : a.length = n) : readExact n (a ++ b) = .ok (a, b) := by
  unfold readExact
  rw [if_neg (by rw [List.length_append]; omega), List.take_left' h, List.drop_left' h]

theorem sliceExact_append (a b : Bytes) (n : Nat) (h : a.length = n) : sliceExact n (a ++ b) = .ok (a, b) := by
  unfold sliceExact
  rw [if_neg (by rw [List.length_append]; omega), List.take_left' h, List.drop_left' h]

theorem readU32_append (x : UInt32) (b : Bytes) : readU32 (le32 x ++ b) = .ok (x.toNat, b) := by
  unfold readU32
  rw [Res.thenOk (readExact_append _ _ 4 (le32_length x))]
  dsimp only
  rw [ofLe32_le32]
  rfl

theorem readU32_len {n : Nat} (h : n < 4294967296) (b : Bytes) : readU32 (len32 n ++ b) = .ok (n, b) := by
  unfold len32
  rw [readU32_append]
  congr 2
  rw [UInt32.toNat_ofNat']; omega

/-- the parts of a GLB file -/
theorem writeGlb_eq (p : GltfPayload) : ∃ pad, writeGlb JT p = asciiBytes "glTF" ++ (le32 2 ++
    (len32 (writeGlb JT p).length ++ (len32 (JT.print p.json ++ List.replicate pad 32).length ++ (asciiBytes "JSON" ++
    ((JT.print p.json ++ List.replicate pad 32) ++ (len32 p.bin.length ++ (asciiBytes "BIN\x00" ++ p.bin))))))) ∧
    (JT.print p.json ++ List.replicate pad 32).length % 4 = 0 ∧ pad < 4 := by
  refine ⟨(4 - (JT.print p.json).length % 4) % 4, ?_, ?_, Nat.mod_lt _ (by decide)⟩
  · have hl : (writeGlb JT p).length = 12 + 8 + ((JT.print p.json).length + (4 - (JT.print p.json).length % 4) % 4) + 8
        + p.bin.length := by
      unfold writeGlb
      simp only [List.length_append, List.length_replicate]
      have a1 : (asciiBytes "glTF").length = 4 := rfl
      have a2 : (asciiBytes "JSON").length = 4 := rfl
      have a3 : (asciiBytes "BIN\x00").length = 4 := rfl
      have a4 : ∀ n, (len32 n).length = 4 := fun _ => rfl
      have a5 : (le32 2).length = 4 := rfl
      rw [a1, a2, a3, a4, a4, a4, a5]
      omega
    rw [hl]
    unfold writeGlb
    simp only [List.append_assoc, List.length_append, List.length_replicate]
  · rw [List.length_append, List.length_replicate]; omega

theorem readGlbPayload_write (p : GltfPayload) (hv : p.json.Valid JT.keeps)
    (hl : (writeGlb JT p).length < 4294967296) : readGlbPayload JT (writeGlb JT p) = .ok p := by
  obtain ⟨pad, e, -, -⟩ := writeGlb_eq JT p
  have hlen := congrArg List.length e
  simp only [List.length_append] at hlen
  have l1 : (JT.print p.json ++ List.replicate pad 32).length < 4294967296 := by rw [List.length_append]; omega
  have l2 : p.bin.length < 4294967296 := by omega
  rw [e]
  unfold readGlbPayload
  rw [Res.thenOk (readExact_append _ _ 4 rfl)]
  dsimp only
  rw [show ensure (asciiBytes "glTF" == asciiBytes "glTF") .io = .ok () from rfl, Res.thenOk rfl,
    Res.thenOk (readU32_append _ _)]
  dsimp only
  rw [show ensure ((2 : UInt32).toNat == 2) .io = .ok () from rfl, Res.thenOk rfl,
    Res.thenOk (readU32_len hl _)]
  dsimp only
  rw [Res.thenOk (readU32_len l1 _)]
  dsimp only
  rw [Res.thenOk (readExact_append _ _ 4 rfl)]
  dsimp only
  rw [show ensure (asciiBytes "JSON" == asciiBytes "JSON") .io = .ok () from rfl, Res.thenOk rfl,
    Res.thenOk (sliceExact_append _ _ _ rfl)]
  dsimp only
  rw [JT.parse_print _ _ hv, orIo_bind, Res.thenOk (readU32_len l2 _)]
  dsimp only
  rw [Res.thenOk (readExact_append _ _ 4 rfl)]
  dsimp only
  rw [show ensure (asciiBytes "BIN\x00" == asciiBytes "BIN\x00") .io = .ok () from rfl, Res.thenOk rfl]
  have := sliceExact_append p.bin [] p.bin.length rfl
  rw [List.append_nil] at this
  rw [Res.thenOk this]
  rfl

theorem Mesh.FromFile.len {m : Mesh} (h : m.FromFile) : ∀ w ∈ m.vertices, w.encoded.length = 32 :=
  fun w hw => by rw [h w hw]; rfl

/-- What is read is the mesh that was written: the same bytes for every vertex and the same faces. The numbers of the
vertices are the same too, only normals that are no numbers are read as zero. -/
structure SameMesh (m m' : Mesh) : Prop where
  bytes : m'.vertices.map (·.encoded) = m.vertices.map (·.encoded)
  faces : m'.faces = m.faces
  numbers : m'.vertices.map (·.vertex) = m.vertices.map fun w =>
    { w.vertex with
      nx := if w.vertex.nx.isNaN then 0 else w.vertex.nx
      ny := if w.vertex.ny.isNaN then 0 else w.vertex.ny
      nz := if w.vertex.nz.isNaN then 0 else w.vertex.nz }

theorem sameMesh_back {m : Mesh} (h : m.FromFile) : SameMesh m ⟨m.vertices.map gltfBack, m.faces⟩ where
  bytes := by
    rw [List.map_map]
    exact List.map_congr_left fun w hw => gltfBack_encoded (h w hw)
  faces := rfl
  numbers := by rw [List.map_map]; rfl

/-- **C55** A mesh written as a GLB file is read back, with its name. The file must be shorter than 4 GiB. -/
theorem C55_glb_back (name : Str) (m : Mesh) (hb : m.FromFile)
    (hf : ∀ f ∈ m.faces, f.Below (256 ^ indexWidth m.vertices.length))
    (hl : (writeGlbFile JT name m).length < 4294967296) :
    ∃ m', readGlb JT (writeGlbFile JT name m) = .ok (name, m') ∧ SameMesh m m' := by
  refine ⟨_, ?_, sameMesh_back hb⟩
  have hbin : (buildGltf name m none).bin.length < 18446744073709551616 := by
    obtain ⟨pad, e, -, -⟩ := writeGlb_eq JT (buildGltf name m none)
    have hlen := congrArg List.length e
    simp only [List.length_append] at hlen
    unfold writeGlbFile at hl
    omega
  unfold readGlb writeGlbFile
  rw [Res.thenOk (readGlbPayload_write JT _ (buildGltf_valid _ name m none hbin) hl)]
  exact parseGltf_build name m none hb.len hf hbin

/-- **C55** The same for a `.gltf` file with a `.bin` file beside it, if both are in the directory that is read from. -/
theorem C55_gltf_back (stem name : Str) (m : Mesh) (files : Str → Option Bytes) (hb : m.FromFile)
    (hf : ∀ f ∈ m.faces, f.Below (256 ^ indexWidth m.vertices.length))
    (hl : (writeGltfFiles JT stem name m).2.length < 18446744073709551616)
    (hs : ¬ "data:".toList <+: stem ++ ".bin".toList)
    (hbin : files (stem ++ ".bin".toList) = some (writeGltfFiles JT stem name m).2) :
    ∃ m', readGltfFiles JT files (writeGltfFiles JT stem name m).1 = .ok (name, m') ∧ SameMesh m m' := by
  refine ⟨_, ?_, sameMesh_back hb⟩
  have hv := buildGltf_valid JT.keeps name m (some (stem ++ ".bin".toList)) hl
  have hp := JT.parse_print _ 0 hv
  rw [List.replicate_zero, List.append_nil] at hp
  unfold readGltfFiles
  show (orIo (JT.parse (JT.print (buildGltf name m (some (stem ++ ".bin".toList))).json)) >>= _) = _
  rw [hp, orIo_bind]
  have e : ((((buildGltf name m (some (stem ++ ".bin".toList))).json.at key!"buffers").idx 0).at key!"uri").asStr?
    = some (stem ++ ".bin".toList) := rfl
  rw [e, orIo_bind]
  have hd : "data:".toList.isPrefixOf (stem ++ ".bin".toList) = false := by
    cases h : "data:".toList.isPrefixOf (stem ++ ".bin".toList)
    · rfl
    · exact absurd (List.isPrefixOf_iff_prefix.1 h) hs
  rw [hd, show ensure (!false) .io = .ok () from rfl, Res.thenOk rfl, hbin, orIo_bind]
  exact parseGltf_build name m (some (stem ++ ".bin".toList)) hb.len hf hl

/-- **C55** For a primitive: after writing its mesh as a GLB file and reading that, it has the same mesh again. -/
theorem C55_primitive_back (Z : Zlib) (name : Str) (p : Primitive) (m : Mesh) (hm : p.readMesh Z = .ok (some m))
    (hl : (writeGlbFile JT name m).length < 4294967296) :
    ∃ m', readGlb JT (writeGlbFile JT name m) = .ok (name, m') ∧
      (p.setMesh Z m'.vertices.length (m'.vertices.flatMap (·.encoded)) m'.faces).readMesh Z = .ok (some m) := by
  obtain ⟨a1, a2, a3, a4⟩ := readMesh_facts hm
  obtain ⟨m', r1, r2⟩ := C55_glb_back JT name m a1 a4 hl
  refine ⟨m', r1, ?_⟩
  have hlen : m'.vertices.length = m.vertices.length := by
    have := congrArg List.length r2.bytes
    simpa using this
  have hby : m'.vertices.flatMap (·.encoded) = m.vertices.flatMap (·.encoded) := by
    rw [List.flatMap_def, List.flatMap_def, r2.bytes]
  rw [hlen, hby, r2.faces]
  exact setMesh_readMesh Z p m a1 a2 a3 a4

/-- **C55** A frame of an animation written as a GLB file comes back with the same numbers, except that normals that
are no numbers come back as zero; vertices beyond those of the mesh are lost. -/
theorem C55_frame_back (name : Str) (m : Mesh) (frame : List FrameVertex)
    (hf : ∀ f ∈ m.faces, f.Below (256 ^ indexWidth (replaceVertices m.vertices frame).length))
    (hl : (writeGlbFile JT name ⟨replaceVertices m.vertices frame, m.faces⟩).length < 4294967296) :
    ∃ m', readGlb JT (writeGlbFile JT name ⟨replaceVertices m.vertices frame, m.faces⟩) = .ok (name, m') ∧
      meshFrame m' = (frame.take m.vertices.length).map fun v =>
        { v with
          nx := if v.nx.isNaN then 0 else v.nx
          ny := if v.ny.isNaN then 0 else v.ny
          nz := if v.nz.isNaN then 0 else v.nz } := by
  have hbin : (buildGltf name ⟨replaceVertices m.vertices frame, m.faces⟩ none).bin.length < 18446744073709551616 := by
    obtain ⟨pad, e, -, -⟩ := writeGlb_eq JT (buildGltf name ⟨replaceVertices m.vertices frame, m.faces⟩ none)
    have hlen := congrArg List.length e
    simp only [List.length_append] at hlen
    unfold writeGlbFile at hl
    omega
  refine ⟨⟨(replaceVertices m.vertices frame).map gltfBack, m.faces⟩, ?_, ?_⟩
  · unfold readGlb writeGlbFile
    rw [Res.thenOk (readGlbPayload_write JT _ (buildGltf_valid _ name _ none hbin) hl)]
    refine parseGltf_build name ⟨replaceVertices m.vertices frame, m.faces⟩ none ?_ hf hbin
    intro w hw
    obtain ⟨x, -, rfl⟩ := List.mem_map.1 hw
    rfl
  · unfold meshFrame
    dsimp only
    rw [List.map_map]
    have : ∀ (vs : List VertexWrapper) (fr : List FrameVertex),
        (replaceVertices vs fr).map ((fun w => FrameVertex.mk w.vertex.x w.vertex.y w.vertex.z w.vertex.nx w.vertex.ny
          w.vertex.nz) ∘ gltfBack) = (fr.take vs.length).map fun v =>
        { v with
          nx := if v.nx.isNaN then 0 else v.nx
          ny := if v.ny.isNaN then 0 else v.ny
          nz := if v.nz.isNaN then 0 else v.nz } := by
      intro vs
      induction vs with
      | nil => intro fr; rfl
      | cons w vs ih =>
        intro fr
        cases fr with
        | nil => rfl
        | cons v fr =>
          rw [List.length_cons, List.take_succ_cons, List.map_cons, ← ih fr]
          rfl
    exact this m.vertices frame

/-- **C55** The file is a GLB container: the magic word, version 2, the length of the file; a JSON chunk and a BIN
chunk with their lengths, both multiples of four; nothing else. The JSON text is followed by fewer than four spaces. -/
theorem C55_container (name : Str) (m : Mesh) : ∃ json bin pad,
    writeGlbFile JT name m = asciiBytes "glTF" ++ le32 2 ++ le32 (UInt32.ofNat (writeGlbFile JT name m).length)
      ++ le32 (UInt32.ofNat json.length) ++ asciiBytes "JSON" ++ json
      ++ le32 (UInt32.ofNat bin.length) ++ asciiBytes "BIN\x00" ++ bin ∧
    json = JT.print (buildGltf name m none).json ++ List.replicate pad 32 ∧ pad < 4 ∧
    json.length % 4 = 0 ∧ bin.length % 4 = 0 := by
  obtain ⟨pad, e, h1, h2⟩ := writeGlb_eq JT (buildGltf name m none)
  refine ⟨_, (buildGltf name m none).bin, pad, ?_, rfl, h2, h1, ?_⟩
  · unfold writeGlbFile
    simp only [List.append_assoc] at e ⊢
    exact e
  · show (pad4 _).length % 4 = 0
    generalize gltfPositions m.vertices ++ gltfNormals m.vertices ++ gltfTexcoords m.vertices ++ _ = bs
    unfold pad4
    rw [List.length_append, List.length_replicate]
    omega

theorem readExact_short {n : Nat} {bs : Bytes} (h : bs.length < n) : readExact n bs = .error .io := by
  unfold readExact
  rw [if_pos h]

theorem readU32_short {bs : Bytes} (h : bs.length < 4) : readU32 bs = .error .io := by
  unfold readU32
  rw [readExact_short h]; rfl

theorem readExact_inv {n : Nat} {bs a b : Bytes} (h : readExact n bs = .ok (a, b)) : bs = a ++ b ∧ a.length = n := by
  unfold readExact at h
  split at h
  · cases h
  · cases h
    exact ⟨(List.take_append_drop _ _).symm, by rw [List.length_take]; omega⟩

theorem sliceExact_inv {n : Nat} {bs a b : Bytes} (h : sliceExact n bs = .ok (a, b)) : bs = a ++ b ∧ a.length = n := by
  unfold sliceExact at h
  split at h
  · cases h
  · cases h
    exact ⟨(List.take_append_drop _ _).symm, by rw [List.length_take]; omega⟩

theorem readU32_inv {n : Nat} {bs b : Bytes} (h : readU32 bs = .ok (n, b)) :
    ∃ a, bs = a ++ b ∧ a.length = 4 ∧ n = (ofLe32 a).toNat := by
  unfold readU32 at h
  obtain ⟨⟨x, y⟩, h1, h⟩ := Res.unbind h
  cases h
  obtain ⟨h2, h3⟩ := readExact_inv h1
  exact ⟨x, h2, h3, rfl⟩

/-- a file that is read has at least the lengths its two chunk headers name -/
theorem readGlbPayload_inv {data : Bytes} {p : GltfPayload} (h : readGlbPayload JT data = .ok p) :
    ∃ head jl json bl btype rest, data = head ++ (jl ++ (asciiBytes "JSON" ++ (json ++ (bl ++ (btype ++ (p.bin ++ rest)))))) ∧
      head.length = 12 ∧ jl.length = 4 ∧ json.length = (ofLe32 jl).toNat ∧ bl.length = 4 ∧ btype.length = 4 ∧
      p.bin.length = (ofLe32 bl).toNat := by
  unfold readGlbPayload at h
  obtain ⟨⟨magic, r1⟩, h1, h⟩ := Res.unbind h
  obtain ⟨_, -, h⟩ := Res.unbind h
  obtain ⟨⟨ver, r2⟩, h2, h⟩ := Res.unbind h
  obtain ⟨_, -, h⟩ := Res.unbind h
  obtain ⟨⟨tot, r3⟩, h3, h⟩ := Res.unbind h
  obtain ⟨⟨jl, r4⟩, h4, h⟩ := Res.unbind h
  obtain ⟨⟨ty, r5⟩, h5, h⟩ := Res.unbind h
  obtain ⟨_, hty, h⟩ := Res.unbind h
  obtain ⟨⟨js, r6⟩, h6, h⟩ := Res.unbind h
  obtain ⟨json, -, h⟩ := Res.unbind h
  obtain ⟨⟨bl, r7⟩, h7, h⟩ := Res.unbind h
  obtain ⟨⟨ty2, r8⟩, h8, h⟩ := Res.unbind h
  obtain ⟨_, -, h⟩ := Res.unbind h
  obtain ⟨⟨bin, r9⟩, h9, h⟩ := Res.unbind h
  cases h
  obtain ⟨e1, l1⟩ := readExact_inv h1
  obtain ⟨a2, e2, l2, -⟩ := readU32_inv h2
  obtain ⟨a3, e3, l3, -⟩ := readU32_inv h3
  obtain ⟨a4, e4, l4, n4⟩ := readU32_inv h4
  obtain ⟨e5, l5⟩ := readExact_inv h5
  obtain ⟨e6, l6⟩ := sliceExact_inv h6
  obtain ⟨a7, e7, l7, n7⟩ := readU32_inv h7
  obtain ⟨e8, l8⟩ := readExact_inv h8
  obtain ⟨e9, l9⟩ := sliceExact_inv h9
  have ety : ty = asciiBytes "JSON" := by
    unfold ensure at hty
    split at hty
    · next hb => exact eq_of_beq hb
    · cases hty
  dsimp only at *
  refine ⟨magic ++ a2 ++ a3, a4, js, a7, ty2, r9, ?_, ?_, l4, by rw [l6, n4], l7, l8, by rw [l9, n7]⟩
  · rw [e1, e2, e3, e4, e5, e6, e7, e8, e9, ety]
    simp only [List.append_assoc]
  · simp only [List.length_append]; omega

/-- **C55** No file that was cut off is read as a mesh. -/
theorem C55_truncated (name : Str) (m : Mesh) (n : Nat) (hn : n < (writeGlbFile JT name m).length)
    (hl : (writeGlbFile JT name m).length < 4294967296) (r : Str × Mesh) :
    readGlb JT ((writeGlbFile JT name m).take n) ≠ .ok r := by
  intro h
  obtain ⟨p, h1, -⟩ := Res.unbind h
  obtain ⟨head, jl, json, bl, ty, rest, e, l1, l2, l3, l4, l5, l6⟩ := readGlbPayload_inv JT h1
  obtain ⟨pad, e', -, -⟩ := writeGlb_eq JT (buildGltf name m none)
  have hlen := congrArg List.length e'
  unfold writeGlbFile at hn hl e
  -- the file is a longer continuation of the part that was read
  have hwhole := (List.take_append_drop n (writeGlb JT (buildGltf name m none))).symm
  rw [e] at hwhole
  generalize hd : (writeGlb JT (buildGltf name m none)).drop n = tail at hwhole
  have htail : 0 < tail.length := by rw [← hd, List.length_drop]; omega
  rw [hwhole] at e'
  generalize hj : JT.print (buildGltf name m none).json ++ List.replicate pad 32 = json' at e'
  simp only [List.append_assoc] at e'
  have a1 : (asciiBytes "glTF").length = 4 := rfl
  have a2 : (asciiBytes "JSON").length = 4 := rfl
  have a3 : (asciiBytes "BIN\x00").length = 4 := rfl
  have a4 : ∀ n, (len32 n).length = 4 := fun _ => rfl
  have a5 : (le32 2).length = 4 := rfl
  rw [← List.append_assoc (le32 2), ← List.append_assoc (asciiBytes "glTF")] at e'
  obtain ⟨-, e'⟩ := List.append_inj e' (by simp only [List.length_append, a1, a4, a5, l1])
  obtain ⟨ej, e'⟩ := List.append_inj e' (by rw [l2, a4])
  obtain ⟨-, e'⟩ := List.append_inj e' rfl
  have hbound : json'.length < 4294967296 ∧ (buildGltf name m none).bin.length < 4294967296 := by
    rw [hj] at hlen
    simp only [List.length_append] at hlen
    omega
  have hjl : json.length = json'.length := by
    rw [l3, ej]
    unfold len32
    rw [ofLe32_le32, UInt32.toNat_ofNat']
    exact Nat.mod_eq_of_lt hbound.1
  obtain ⟨-, e'⟩ := List.append_inj e' hjl
  obtain ⟨eb, e'⟩ := List.append_inj e' (by rw [l4, a4])
  obtain ⟨-, e'⟩ := List.append_inj e' (by rw [l5, a3])
  have hbl : p.bin.length = (buildGltf name m none).bin.length := by
    rw [l6, eb]
    unfold len32
    rw [ofLe32_le32, UInt32.toNat_ofNat']
    exact Nat.mod_eq_of_lt hbound.2
  have hend := congrArg List.length e'
  simp only [List.length_append] at hend
  omega

/-- **C55** Files that are damaged can abort the program instead of giving an error: here the JSON chunk is shorter
than its header says. -/
theorem C55_damaged_counterexample : readGlb JT (asciiBytes "glTF" ++ (le32 2 ++ (len32 28 ++ (len32 8 ++
    (asciiBytes "JSON" ++ asciiBytes "{}"))))) = .error .panic := by
  unfold readGlb readGlbPayload
  rw [Res.thenOk (readExact_append _ _ 4 rfl)]
  rfl

/-- **C55** And so can a file with valid JSON and no accessors. -/
theorem C55_foreign_counterexample (bin : Bytes) :
    parseGltf ⟨.obj [(key!"accessors", .arr []), (key!"bufferViews", .arr [])], bin⟩ = .error .panic := rfl

/-! ### Examples -/

/-- the mesh of the OBJ example: one vertex has a normal that is no number -/
theorem sampleMesh_gltf : sampleMesh.FromFile ∧
    (∀ f ∈ sampleMesh.faces, f.Below (256 ^ indexWidth sampleMesh.vertices.length)) := by
  refine ⟨sampleMesh_ok.1, ?_⟩
  intro f hf
  unfold sampleMesh at hf
  simp only [List.mem_cons, List.not_mem_nil, or_false] at hf
  rcases hf with rfl | rfl <;> (unfold Face.Below; decide)

theorem sampleGlb_length : (writeGlbFile sampleJsonText "Prim".toList sampleMesh).length < 4294967296 := by
  decide +kernel

example : ∃ m', readGlb sampleJsonText (writeGlbFile sampleJsonText "Prim".toList sampleMesh) = .ok ("Prim".toList, m') ∧
    SameMesh sampleMesh m' :=
  C55_glb_back sampleJsonText "Prim".toList sampleMesh sampleMesh_gltf.1 sampleMesh_gltf.2 sampleGlb_length

example : ∃ m', readGltfFiles sampleJsonText
    (fun f => if f = "Primitive.Prim.bin".toList then
      some (writeGltfFiles sampleJsonText "Primitive.Prim".toList "Prim".toList sampleMesh).2 else none)
    (writeGltfFiles sampleJsonText "Primitive.Prim".toList "Prim".toList sampleMesh).1 = .ok ("Prim".toList, m') ∧
    SameMesh sampleMesh m' :=
  C55_gltf_back sampleJsonText "Primitive.Prim".toList "Prim".toList sampleMesh _ sampleMesh_gltf.1 sampleMesh_gltf.2
    (by decide +kernel) (by decide) rfl

/-- the hypotheses about frames: two vertices, the second with a normal that is no number, and a third that is lost -/
example : (∀ f ∈ sampleMesh.faces, f.Below (256 ^ indexWidth
      (replaceVertices sampleMesh.vertices [⟨1, 2, 3, 4, 5, 6⟩, ⟨1, 2, 3, 0x7fc00000, 5, 6⟩, ⟨0, 0, 0, 0, 0, 0⟩]).length)) ∧
    (writeGlbFile sampleJsonText "Prim".toList ⟨replaceVertices sampleMesh.vertices
      [⟨1, 2, 3, 4, 5, 6⟩, ⟨1, 2, 3, 0x7fc00000, 5, 6⟩, ⟨0, 0, 0, 0, 0, 0⟩], sampleMesh.faces⟩).length < 4294967296 :=
  ⟨sampleMesh_gltf.2, by decide +kernel⟩

example : ∀ n < 100, ∀ r,
    readGlb sampleJsonText ((writeGlbFile sampleJsonText "Prim".toList sampleMesh).take n) ≠ .ok r := fun n hn r =>
  C55_truncated sampleJsonText "Prim".toList sampleMesh n
    (Nat.lt_of_lt_of_le hn (by decide +kernel)) sampleGlb_length r

end Vpin
