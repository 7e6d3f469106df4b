import Verif.Props.Derived
/-
**C89.** What vpin reads from the files of derived meshes.
-/
namespace Vpin
variable (E : ExpandEnv)

/-- **C89.** From the file of a wall, ramp, rubber or flasher the mesh is read as it was computed: the bytes of every
vertex and the faces. -/
theorem C89_drawn_back (S : StdText E.T) (fmt : MeshFormat) (dir : Str) (fs : Files) (file object : Str)
    (item : GameItemEnum) (hi : item.drawn = true) (m : RawMesh)
    (hf : ∀ f ∈ m.faces, f.Below (256 ^ indexWidth m.vertices.length))
    (hfit : MeshFits E fmt object (m.wrapped item)) (hs : ¬ "data:".toList <+: file ++ ".bin".toList)
    (hg : ∀ w ∈ meshFiles E fmt file object (m.wrapped item), fs.get (joinPath dir w.1) = some w.2) :
    readMeshFile E dir fs fmt file = .ok (m.vertices.length, m.vertices.flatMap Vertex.bytes, m.faces) := by
  have hb : (m.wrapped item).FromFile := by
    intro w hw
    obtain ⟨v, -, rfl⟩ := List.mem_map.1 hw
    dsimp only
    rw [if_pos hi]
    exact toVpx_bytes v
  have hl : (m.wrapped item).vertices.length = m.vertices.length := List.length_map _
  rw [meshFile_back E S fmt dir fs file object (m.wrapped item) hb (by rw [hl]; exact hf) hfit hs hg, hl]
  have : (m.wrapped item).vertices.flatMap (·.encoded) = m.vertices.flatMap Vertex.bytes := by
    show (m.vertices.map _).flatMap _ = _
    rw [List.flatMap_map]
    congr 1
    funext v
    dsimp only
    rw [if_pos hi]
    exact toVpx_bytes v
  rw [this]
  rfl

/-- **C89.** From the GLB or glTF file of another item the normals are not read: they are zero, whatever they were. The
positions, texture coordinates and faces are as they were computed. (The files do hold the normals, for other programs;
vpin prefers the ones in `vpx_normals`, which are zero.) -/
theorem C89_gltf_normals_lost (fmt : MeshFormat) (hfmt : fmt ≠ .Obj) (dir : Str) (fs : Files) (file object : Str)
    (item : GameItemEnum) (hi : item.drawn = false) (m : RawMesh)
    (hf : ∀ f ∈ m.faces, f.Below (256 ^ indexWidth m.vertices.length))
    (hfit : MeshFits E fmt object (m.wrapped item)) (hs : ¬ "data:".toList <+: file ++ ".bin".toList)
    (hg : ∀ w ∈ meshFiles E fmt file object (m.wrapped item), fs.get (joinPath dir w.1) = some w.2) :
    readMeshFile E dir fs fmt file = .ok (m.vertices.length,
      m.vertices.flatMap (fun v => ({ v with nx := 0, ny := 0, nz := 0 } : Vertex).bytes), m.faces) := by
  have hl : (m.wrapped item).vertices.length = m.vertices.length := List.length_map _
  have h32 : ∀ w ∈ (m.wrapped item).vertices, w.encoded.length = 32 := by
    intro w hw
    obtain ⟨v, -, rfl⟩ := List.mem_map.1 hw
    dsimp only
    rw [if_neg (by rw [hi]; exact Bool.false_ne_true)]
    rfl
  have hf' : ∀ f ∈ (m.wrapped item).faces, f.Below (256 ^ indexWidth (m.wrapped item).vertices.length) := by
    rw [hl]; exact hf
  have hback : ((m.wrapped item).vertices.map gltfBack).flatMap (·.encoded)
      = m.vertices.flatMap (fun v => ({ v with nx := 0, ny := 0, nz := 0 } : Vertex).bytes) := by
    show ((m.vertices.map _).map gltfBack).flatMap _ = _
    rw [List.map_map, List.flatMap_map]
    congr 1
    funext v
    simp only [Function.comp_def, gltfBack, hi]
    simp only [Vertex.bytes, List.append_assoc]
    rfl
  unfold readMeshFile
  cases fmt with
  | Obj => exact absurd rfl hfmt
  | Glb =>
    have h1 : fs.get (joinPath dir (fileName file MeshFormat.Glb.ext)) = some (writeGlbFile E.J object (m.wrapped item)) :=
      hg (_, _) List.mem_cons_self
    rw [h1, orIo_bind]
    dsimp only
    unfold readGltf
    dsimp only
    rw [glb_parse E.J object (m.wrapped item) h32 hf' hfit]
    show Except.ok (_, _, _) = _
    rw [hback, List.length_map, hl]
    rfl
  | Gltf =>
    have h1 : fs.get (joinPath dir (fileName file MeshFormat.Gltf.ext))
        = some (writeGltfFiles E.J file object (m.wrapped item)).1 := hg (_, _) List.mem_cons_self
    have h2 : fs.get (joinPath dir (fileName file "bin".toList))
        = some (writeGltfFiles E.J file object (m.wrapped item)).2 :=
      hg (_, _) (List.mem_cons_of_mem _ List.mem_cons_self)
    rw [h1, orIo_bind]
    dsimp only
    unfold readGltf
    dsimp only
    rw [gltf_parse E.J file object (m.wrapped item) _ h32 hf' hfit hs (by
      have e : fileName file "bin".toList = file ++ ".bin".toList := by unfold fileName; simp
      rw [e] at h2
      exact h2)]
    show Except.ok (_, _, _) = _
    rw [hback, List.length_map, hl]
    rfl

/-- **C89.** From the OBJ file of another item a vertex is read as it was computed, if its numbers survive their text and
the flipped texture coordinate (`1 - tv`) has a text from which `tv` is found again. Otherwise 32 zeros are read: a
vertex at the origin. -/
theorem C89_obj_back (S : StdText E.T) (dir : Str) (fs : Files) (file object : Str)
    (item : GameItemEnum) (hi : item.drawn = false) (m : RawMesh)
    (hfit : MeshFits E .Obj object (m.wrapped item))
    (hg : ∀ w ∈ meshFiles E .Obj file object (m.wrapped item), fs.get (joinPath dir w.1) = some w.2) :
    readMeshFile E dir fs .Obj file = .ok (m.vertices.length,
      m.vertices.flatMap (fun v => if [v.x, v.y, v.z, v.nx, v.ny, v.nz, v.tu, v.tv].all (fun x => !x.isNaN)
        ∧ (flippedV E.T v.tv).2 = true then v.bytes else List.replicate 32 0), m.faces) := by
  have hl : (m.wrapped item).vertices.length = m.vertices.length := List.length_map _
  have h32 : ∀ w ∈ (m.wrapped item).vertices, w.encoded.length = 32 := by
    intro w hw
    obtain ⟨v, -, rfl⟩ := List.mem_map.1 hw
    dsimp only
    rw [if_neg (by rw [hi]; exact Bool.false_ne_true)]
    rfl
  obtain ⟨f1, f2, f3⟩ := hfit
  have h1 : fs.get (joinPath dir (fileName file MeshFormat.Obj.ext))
      = some (E.obj.print (writeObj E.T object (m.wrapped item))) := hg (_, _) List.mem_cons_self
  unfold readMeshFile
  rw [h1, orIo_bind]
  dsimp only
  obtain ⟨name', h2⟩ := E.obj.parse_print object (m.wrapped item) f1
  rw [Res.thenOk h2, Res.thenOk (readObj_write S name' (m.wrapped item) h32 f2)]
  show Except.ok (_, _, _) = _
  dsimp only
  rw [hl]
  have : ∀ vs : List Vertex, (∀ v ∈ vs, v.HasNaN ∨ v.TextExact E.T) →
      (vs.map fun v => (⟨if item.drawn then [v.x, v.y, v.z, v.nx, v.ny, v.nz, v.tu, v.tv].flatMap le32
        else List.replicate 32 0, v⟩ : VertexWrapper)).flatMap
          (fun w => vertexBytes (readBackVertex E.T w) (readNormal E.T w).bytes)
      = vs.flatMap (fun v => if [v.x, v.y, v.z, v.nx, v.ny, v.nz, v.tu, v.tv].all (fun x => !x.isNaN)
        ∧ (flippedV E.T v.tv).2 = true then v.bytes else List.replicate 32 0) := by
    intro vs
    induction vs with
    | nil => intro _; rfl
    | cons v vs ih =>
      intro h
      rw [List.map_cons, List.flatMap_cons, List.flatMap_cons, ih fun x hx => h x (List.mem_cons_of_mem _ hx)]
      refine congrArg (· ++ _) ?_
      dsimp only
      rw [if_neg (c := item.drawn = true) (by rw [hi]; exact Bool.false_ne_true)]
      have hall : ∀ l : List F32, l.all (fun x => !x.isNaN) = !l.any F32.isNaN := by
        intro l
        induction l with
        | nil => rfl
        | cons x l ih => rw [List.all_cons, List.any_cons, ih, Bool.not_or]
      cases hb : needsBytes v (flippedV E.T v.tv).2 with
      | true =>
        have hr : (readNormal E.T ⟨List.replicate 32 0, v⟩).bytes = some (.vertex (List.replicate 32 0)) := by
          unfold readNormal; dsimp only; rw [hb]; rfl
        rw [hr, if_neg]
        · rfl
        · rintro ⟨c1, c2⟩
          unfold needsBytes at hb
          rw [c2, Bool.not_true, Bool.or_false] at hb
          rw [hall, hb] at c1
          cases c1
      | false =>
        have hb' := hb
        unfold needsBytes at hb
        rw [Bool.or_eq_false_iff] at hb
        have ht : v.TextExact E.T := by
          rcases h v List.mem_cons_self with h1 | h1
          · unfold Vertex.HasNaN at h1
            rw [hb.1] at h1; cases h1
          · exact h1
        have hx : (flippedV E.T v.tv).2 = true := by simpa using hb.2
        rw [if_pos ⟨by rw [hall, hb.1]; rfl, hx⟩]
        have e := vertex_back (T := E.T) ⟨v.bytes, v⟩ rfl (.inr ⟨ht, flippedV_exact S hx⟩)
        have hr : readNormal E.T ⟨List.replicate 32 0, v⟩ = readNormal E.T ⟨v.bytes, v⟩ := by
          unfold readNormal; dsimp only; rw [hb']; rfl
        have hv : readBackVertex E.T ⟨List.replicate 32 0, v⟩ = readBackVertex E.T ⟨v.bytes, v⟩ := by
          unfold readBackVertex; rw [hr]
        rw [hr, hv]
        exact e
  exact congrArg (fun b => Except.ok (m.vertices.length, b, m.faces)) (this m.vertices fun v hv =>
    f3 _ (List.mem_map.2 ⟨v, hv, rfl⟩))

end Vpin
