import Verif.Lemmas.ExpandedNames
import Verif.Props.Gltf
/-
Reading the files of meshes and animation frames.
-/
namespace Vpin
variable (E : ExpandEnv)

theorem gltf_parse (JT : JsonText) (stem name : Str) (m : Mesh) (files : Str → Option Bytes)
    (he : ∀ w ∈ m.vertices, w.encoded.length = 32)
    (hf : ∀ f ∈ m.faces, f.Below (256 ^ indexWidth m.vertices.length))
    (hl : (writeGltfFiles JT stem name m).2.length < 18446744073709551616)
    (hs : ¬ "data:".toList <+: stem ++ ".bin".toList)
    (hbin : files (stem ++ ".bin".toList) = some (writeGltfFiles JT stem name m).2) :
    readGltfFiles JT files (writeGltfFiles JT stem name m).1 = .ok (name, ⟨m.vertices.map gltfBack, m.faces⟩) := by
  have hv := buildGltf_valid JT.keeps name m (some (stem ++ ".bin".toList)) hl
  have hp := JT.parse_print _ 0 hv
  rw [List.replicate_zero, List.append_nil] at hp
  unfold readGltfFiles
  show (orIo (JT.parse (JT.print (buildGltf name m (some (stem ++ ".bin".toList))).json)) >>= _) = _
  rw [hp, orIo_bind]
  have e : ((((buildGltf name m (some (stem ++ ".bin".toList))).json.at key!"buffers").idx 0).at key!"uri").asStr?
    = some (stem ++ ".bin".toList) := rfl
  rw [e, orIo_bind]
  have hd : "data:".toList.isPrefixOf (stem ++ ".bin".toList) = false := by
    cases h : "data:".toList.isPrefixOf (stem ++ ".bin".toList)
    · rfl
    · exact absurd (List.isPrefixOf_iff_prefix.1 h) hs
  rw [hd, show ensure (!false) .io = .ok () from rfl, Res.thenOk rfl, hbin, orIo_bind]
  exact parseGltf_build name m (some (stem ++ ".bin".toList)) he hf hl

theorem meshFrame_back : ∀ (vs : List VertexWrapper) (fr : List FrameVertex) (faces : List Face),
    fr.length = vs.length → (∀ v ∈ fr, v.Numeric) →
    meshFrame ⟨(replaceVertices vs fr).map gltfBack, faces⟩ = fr
  | [], [], _, _, _ => rfl
  | w :: vs, v :: fr, faces, hl, hn => by
    have ih := meshFrame_back vs fr faces (by simpa using hl) fun x hx => hn x (List.mem_cons_of_mem _ hx)
    obtain ⟨n1, n2, n3⟩ := hn v List.mem_cons_self
    have e : meshFrame ⟨(replaceVertices (w :: vs) (v :: fr)).map gltfBack, faces⟩
        = ⟨v.x, v.y, v.z, if v.nx.isNaN then 0 else v.nx, if v.ny.isNaN then 0 else v.ny, if v.nz.isNaN then 0 else v.nz⟩
          :: meshFrame ⟨(replaceVertices vs fr).map gltfBack, faces⟩ := rfl
    rw [e, ih, n1, n2, n3]
    rfl

theorem replaceVertices_length (vs : List VertexWrapper) (fr : List FrameVertex) (h : fr.length = vs.length) :
    (replaceVertices vs fr).length = vs.length := by
  unfold replaceVertices
  rw [List.length_map, List.length_zip, h, Nat.min_self]

theorem replaceVertices_encoded (vs : List VertexWrapper) (fr : List FrameVertex) :
    ∀ w ∈ replaceVertices vs fr, w.encoded.length = 32 := by
  intro w hw
  obtain ⟨x, -, rfl⟩ := List.mem_map.1 hw
  rfl

theorem glb_parse (JT : JsonText) (name : Str) (m : Mesh) (he : ∀ w ∈ m.vertices, w.encoded.length = 32)
    (hf : ∀ f ∈ m.faces, f.Below (256 ^ indexWidth m.vertices.length))
    (hl : (writeGlbFile JT name m).length < 4294967296) :
    readGlb JT (writeGlbFile JT name m) = .ok (name, ⟨m.vertices.map gltfBack, m.faces⟩) := by
  have hbin : (buildGltf name m none).bin.length < 18446744073709551616 := by
    obtain ⟨pad, e, -, -⟩ := writeGlb_eq JT (buildGltf name m none)
    have hlen := congrArg List.length e
    simp only [List.length_append] at hlen
    unfold writeGlbFile at hl
    omega
  unfold readGlb writeGlbFile
  rw [Res.thenOk (readGlbPayload_write JT _ (buildGltf_valid _ name m none hbin) hl)]
  exact parseGltf_build name m none he hf hbin

/-- the extensions of the files of a mesh -/
def MeshFormat.exts : MeshFormat → List Str
  | .Obj => ["obj".toList]
  | .Glb => ["glb".toList]
  | .Gltf => ["gltf".toList, "bin".toList]

theorem meshFiles_names (fmt : MeshFormat) (stem name : Str) (m : Mesh) :
    (meshFiles E fmt stem name m).map (·.1) = fmt.exts.map (fileName stem) := by
  cases fmt <;> rfl

theorem ext_mem (fmt : MeshFormat) : fmt.ext ∈ fmt.exts := by cases fmt <;> decide

theorem gltf_bin_stem (JT : JsonText) (stem name : Str) (m : Mesh) :
    (writeGltfFiles JT stem name m).2 = (writeGltfFiles JT [] name m).2 := rfl

/-- the mesh is read from its files -/
theorem meshFile_back (S : StdText E.T) (fmt : MeshFormat) (dir : Str) (fs : Files) (stem name : Str) (m : Mesh)
    (hb : m.FromFile) (hf : ∀ f ∈ m.faces, f.Below (256 ^ indexWidth m.vertices.length))
    (hfit : MeshFits E fmt name m) (hs : ¬ "data:".toList <+: stem ++ ".bin".toList)
    (hg : ∀ w ∈ meshFiles E fmt stem name m, fs.get (joinPath dir w.1) = some w.2) :
    readMeshFile E dir fs fmt stem = .ok (m.vertices.length, m.vertices.flatMap (·.encoded), m.faces) := by
  have hback : ∀ vs : List VertexWrapper, (∀ w ∈ vs, w ∈ m.vertices) →
      (vs.map gltfBack).flatMap (·.encoded) = vs.flatMap (·.encoded) := by
    intro vs h
    rw [List.flatMap_def, List.flatMap_def, List.map_map]
    congr 1
    exact List.map_congr_left fun w hw => gltfBack_encoded (hb w (h w hw))
  have hback := hback m.vertices fun _ h => h
  unfold readMeshFile
  cases fmt with
  | Obj =>
    obtain ⟨f1, f2, f3⟩ := hfit
    have h1 : fs.get (joinPath dir (fileName stem MeshFormat.Obj.ext)) = some (E.obj.print (writeObj E.T name m)) :=
      hg (_, _) List.mem_cons_self
    rw [h1, orIo_bind]
    dsimp only
    obtain ⟨name', h2⟩ := E.obj.parse_print name m f1
    obtain ⟨r, r1, r2, r3, r4⟩ := C52_mesh_back S name' m hb f2 f3
    rw [Res.thenOk h2, Res.thenOk r1, r2, r3, r4]
    rfl
  | Glb =>
    have h1 : fs.get (joinPath dir (fileName stem MeshFormat.Glb.ext)) = some (writeGlbFile E.J name m) :=
      hg (_, _) List.mem_cons_self
    rw [h1, orIo_bind]
    dsimp only
    unfold readGltf
    dsimp only
    rw [glb_parse E.J name m hb.len hf hfit]
    show Except.ok (_, _, _) = _
    rw [hback, List.length_map]
  | Gltf =>
    have h1 : fs.get (joinPath dir (fileName stem MeshFormat.Gltf.ext)) = some (writeGltfFiles E.J stem name m).1 :=
      hg (_, _) List.mem_cons_self
    have h2 : fs.get (joinPath dir (fileName stem "bin".toList)) = some (writeGltfFiles E.J stem name m).2 :=
      hg (_, _) (List.mem_cons_of_mem _ List.mem_cons_self)
    rw [h1, orIo_bind]
    dsimp only
    unfold readGltf
    dsimp only
    rw [gltf_parse E.J stem name m _ hb.len hf hfit hs (by
      have e : fileName stem "bin".toList = stem ++ ".bin".toList := by unfold fileName; simp
      rw [e] at h2
      exact h2)]
    show Except.ok (_, _, _) = _
    rw [hback, List.length_map]

/-- a frame is read from its files -/
theorem frameFile_back (S : StdText E.T) (fmt : MeshFormat) (dir : Str) (fs : Files) (stem name : Str) (m : Mesh)
    (frame : List FrameVertex) (hf : ∀ f ∈ m.faces, f.Below (256 ^ indexWidth m.vertices.length))
    (hm : MeshFits E fmt name m) (hfit : FrameFits E fmt name m frame)
    (hs : ¬ "data:".toList <+: stem ++ ".bin".toList)
    (hg : ∀ w ∈ meshFiles E fmt stem name ⟨replaceVertices m.vertices frame, m.faces⟩,
      fs.get (joinPath dir w.1) = some w.2) :
    ∃ data, fs.get (joinPath dir (fileName stem fmt.ext)) = some data ∧
      readFrameFile E dir fs fmt data = .ok frame := by
  obtain ⟨l1, -, l3, l4⟩ := hfit
  have hf' : ∀ f ∈ (⟨replaceVertices m.vertices frame, m.faces⟩ : Mesh).faces,
      f.Below (256 ^ indexWidth (⟨replaceVertices m.vertices frame, m.faces⟩ : Mesh).vertices.length) := by
    dsimp only
    rw [replaceVertices_length _ _ l1]
    exact hf
  cases fmt with
  | Obj =>
    refine ⟨_, hg (_, _) List.mem_cons_self, ?_⟩
    unfold readFrameFile
    dsimp only
    obtain ⟨name', h2⟩ := E.obj.parse_print name ⟨replaceVertices m.vertices frame, m.faces⟩ hm.1
    rw [Res.thenOk h2, C54_frame_back S name' m frame hm.2.1 (fun v hv => by
      obtain ⟨t1, t2, t3, t4, t5, t6⟩ := l4 v hv
      obtain ⟨n1, n2, n3⟩ := l3 v hv
      exact ⟨t1, t2, t3, ⟨n1, t4⟩, ⟨n2, t5⟩, ⟨n3, t6⟩⟩), ← l1, List.take_length]
  | Glb =>
    refine ⟨_, hg (_, _) List.mem_cons_self, ?_⟩
    unfold readFrameFile readGltf
    dsimp only
    rw [glb_parse E.J name _ (replaceVertices_encoded _ _) hf' l4]
    show Except.ok _ = _
    rw [meshFrame_back _ _ _ l1 l3]
  | Gltf =>
    have h2 : fs.get (joinPath dir (fileName stem "bin".toList))
        = some (writeGltfFiles E.J stem name ⟨replaceVertices m.vertices frame, m.faces⟩).2 :=
      hg (_, _) (List.mem_cons_of_mem _ List.mem_cons_self)
    refine ⟨_, hg (_, _) List.mem_cons_self, ?_⟩
    unfold readFrameFile readGltf
    dsimp only
    rw [gltf_parse E.J stem name _ _ (replaceVertices_encoded _ _) hf' l4 hs (by
      have e : fileName stem "bin".toList = stem ++ ".bin".toList := by unfold fileName; simp
      rw [e] at h2
      exact h2)]
    show Except.ok _ = _
    rw [meshFrame_back _ _ _ l1 l3]

end Vpin
