import Verif.Props.Wasm
import Verif.Props.ExpandedExamples
import Verif.Props.Items
import Verif.Props.GameData
/-
Examples for the bindings.
-/
namespace Vpin

theorem defaultName_wf : ({ Primitive.default with name := "prim".toList } : Primitive).WF where
  image := by decide
  normal_map := .none
  name := by decide
  material := by decide
  disable_lighting_top_old := .none
  physics_material := by first | exact .none | exact .some (by decide)
  mesh_file_name := .none
  compressed_vertices_data := .none
  compressed_indices_data := .none
  animation := .inl ⟨rfl, rfl⟩
  light_map := by first | exact .none | exact .some (by decide)
  reflection_probe := by first | exact .none | exact .some (by decide)
  refraction_probe := by first | exact .none | exact .some (by decide)
  shared := ⟨by first | exact .none | exact .some (by decide), by first | exact .none | exact .some (by decide)⟩

theorem sampleName_wf : ({ samplePrimitive with name := "PRIM".toList } : Primitive).WF where
  image := by decide
  normal_map := .none
  name := by decide
  material := by decide
  disable_lighting_top_old := .none
  physics_material := by first | exact .none | exact .some (by decide)
  mesh_file_name := .none
  compressed_vertices_data := .some (by decide +kernel)
  compressed_indices_data := .some (by decide +kernel)
  animation := .inl ⟨rfl, rfl⟩
  light_map := by first | exact .none | exact .some (by decide)
  reflection_probe := by first | exact .none | exact .some (by decide)
  refraction_probe := by first | exact .none | exact .some (by decide)
  shared := ⟨by first | exact .none | exact .some (by decide), by first | exact .none | exact .some (by decide)⟩

theorem expandPrimitive_wf : expandPrimitive.WF where
  image := by decide
  normal_map := .none
  name := by decide
  material := by decide
  disable_lighting_top_old := .none
  physics_material := by first | exact .none | exact .some (by decide)
  mesh_file_name := .none
  compressed_vertices_data := .some (by decide +kernel)
  compressed_indices_data := .some (by decide +kernel)
  animation := .inr ⟨_, _, rfl, rfl, rfl, by decide, by decide +kernel⟩
  light_map := by first | exact .none | exact .some (by decide)
  reflection_probe := by first | exact .none | exact .some (by decide)
  refraction_probe := by first | exact .none | exact .some (by decide)
  shared := ⟨by first | exact .none | exact .some (by decide), by first | exact .none | exact .some (by decide)⟩

theorem expandGameData_wf : expandTable.gamedata.WF 1080 := by
  refine ⟨?_, ?_, fun _ => ⟨rfl, rfl⟩, fun _ h => by cases h⟩
  · exact ⟨by decide, by decide, by decide, .some (by decide), by decide, by decide, by decide, .some (by decide), .some (by decide), by decide, by decide, ⟨128, by decide, rfl⟩, .some (by decide), by decide +kernel, .some (by decide), .some (by decide), .some (by decide), by decide, by decide, .some (by decide), ⟨[0x4f, 0xe9, 0x0a], by decide, by decide, by decide +kernel⟩⟩
  · refine ⟨by decide +kernel, by decide +kernel, .some (by decide), ?_, ?_⟩
    · intro m hm
      have hm : m ∈ expandMaterials := hm
      simp only [expandMaterials, List.mem_cons, List.not_mem_nil, or_false] at hm
      rcases hm with rfl | rfl <;> exact writeOk_of (by decide +kernel)
    · intro p hp
      have : p = ⟨RenderProbe.sample, [1, 2]⟩ := List.mem_singleton.1 hp
      subst this
      exact writeOk_of (by decide +kernel)

/-- the table of the examples can be stored -/
theorem expandTable_wf : expandTable.WF sampleEnv where
  tags := by decide
  info := ⟨by decide +kernel, by decide +kernel⟩
  gamedata := expandGameData_wf
  gameitems := by
    intro g hg
    have hg : g ∈ expandItems := hg
    simp only [expandItems, List.mem_cons, List.not_mem_nil, or_false] at hg
    rcases hg with rfl | rfl | rfl | rfl | rfl
    · exact expandPrimitive_wf
    · exact Wall.sample_wf
    · exact sampleName_wf
    · exact defaultName_wf
    · exact Wall.sample_wf
  images := by
    intro x hx
    have hx : x ∈ expandImages := hx
    simp only [expandImages, List.mem_cons, List.not_mem_nil, or_false] at hx
    rcases hx with rfl | rfl | rfl | rfl
    · exact ⟨⟨by decide, .some (by decide), by decide, .some (by decide), ImageData.sample_fields.jpeg⟩, .none, .inl rfl⟩
    · exact ⟨⟨by decide, .some (by decide), by decide, .some (by decide), ImageData.sample_fields.jpeg⟩, .none, .inl rfl⟩
    · exact ⟨⟨by decide, .some (by decide), by decide, .some (by decide), .none⟩, .some (by decide +kernel), .inr rfl⟩
    · exact ⟨⟨by decide, .some (by decide), by decide, .some (by decide), .none⟩, .none, .inl rfl⟩
  sounds := VPX.sample_wf.sounds
  fonts := VPX.sample_wf.fonts
  collections := VPX.sample_wf.collections
  counts := ⟨rfl, rfl, rfl, rfl, rfl⟩

/-- tables that are the same are expanded alike -/
theorem VPX.Expandable.same {E : ExpandEnv} {fmt : MeshFormat} {t t' : VPX} (h : t.Expandable E fmt) (hs : t.Same t') :
    t'.Expandable E fmt := by
  obtain ⟨a, b, c, d, e, f, g, i, j⟩ := t
  obtain ⟨a', b', c', d', e', f', g', i', j'⟩ := t'
  obtain ⟨h1, h2, h3, h4, h5, h6, h7, h8, h9⟩ := hs
  dsimp only at h1 h2 h3 h4 h5 h6 h7 h8 h9
  subst h1 h3 h4 h5 h6 h7 h8 h9
  exact { h with properties := (h2.2.map _).nodup_iff.1 h.properties }

/-- A file with five items, four images, three sounds and a font meets the conditions of C87, and so do the files of it. -/
example : ∃ c t files, VPX.read sampleEnv c = .ok t ∧ t.images.length = 4 ∧ t.gameitems.length = 5 ∧
    extractFiles sampleEnv sampleExpand c = .ok files ∧
    ∃ t', SameTable sampleExpand t t' ∧ assembleFiles sampleEnv sampleExpand files.reverse = t'.write sampleEnv := by
  obtain ⟨c, t, -, hr, hs⟩ := C22_table_roundtrip sampleEnv expandTable expandTable_wf
  have hi : (imageFiles sampleExpand t.images).Nodup := by
    rw [← hs.images]; decide +kernel
  have hsn : (soundFiles sampleExpand t.sounds).Nodup := by
    rw [← hs.sounds]; decide +kernel
  obtain ⟨files, h1, -, h3⟩ := C87_extract_assemble sampleEnv sampleExpand byteText_std c t hr (expandTable_ok.same hs) hi hsn
  obtain ⟨t', h4, h5, -⟩ := h3 files.reverse (List.reverse_perm _)
  exact ⟨c, t, files, hr, by rw [← hs.images]; rfl, by rw [← hs.gameitems]; rfl, h1, t', h4, h5⟩

/-! ### C86 -/

/-- a triangle and a fourth vertex -/
def wasmVertices : List Vertex :=
  [⟨0, 0, 0x3f800000, 0, 0, 0x3f800000, 0, 0⟩, ⟨0x40000000, 0, 0, 0, 0, 0x3f800000, 0x3f000000, 0⟩,
   ⟨0, 0xc0000000, 0, 0, 0, 0x3f800000, 0, 0x3f800000⟩, ⟨0x3f800000, 0x3f800000, 0x3f800000, 0, 0, 0x3f800000, 0, 0⟩]

def wasmTriangles : List (UInt32 × UInt32 × UInt32) := [(0, 1, 2), (3, 1, 0)]

def wasmSample : WasmMesh :=
  ⟨"tri".toList, wasmVertices.flatMap fun v => [v.x, v.y, v.z], wasmVertices.flatMap fun v => [v.tu, v.tv],
    wasmVertices.flatMap fun v => [v.nx, v.ny, v.nz], wasmTriangles.flatMap fun t => [t.1, t.2.1, t.2.2]⟩

theorem wasmSample_describes :
    Describes wasmVertices wasmTriangles wasmSample.positions wasmSample.texCoords wasmSample.normals wasmSample.indices :=
  ⟨rfl, rfl, rfl, rfl⟩

theorem wasmSample_below : ∀ t ∈ wasmTriangles, CornersBelow wasmVertices.length t := by
  unfold CornersBelow
  decide

theorem wasmSample_survives (convert : Bool) : ∀ v ∈ wasmVertices, v.Survives byteText convert := by
  intro v hv
  have h : ∀ v ∈ wasmVertices, ∀ x ∈ [v.x, v.y, v.z, v.z.neg, v.nx, v.ny, v.nz, v.nz.neg, v.tu, v.tv],
      x.toF64.toF32 = x := by decide +kernel
  have hf : ∀ v ∈ wasmVertices, (flippedV byteText v.tv).2 = true := by decide +kernel
  have e : ∀ x ∈ [v.x, v.y, v.z, v.z.neg, v.nx, v.ny, v.nz, v.nz.neg, v.tu, v.tv], Vpin.TextExact byteText x :=
    fun x hx => exact_byteText (h v hv x hx)
  unfold Vertex.Survives
  cases convert
  · rw [if_neg (by decide)]
    intro x hx
    refine e x ?_
    simp only [List.mem_cons] at hx ⊢
    grind
  · rw [if_pos rfl]
    refine ⟨⟨e _ ?_, e _ ?_, e _ ?_, e _ ?_, e _ ?_, e _ ?_, e _ ?_⟩, hf v hv⟩ <;> simp

/-- the mesh is accepted, and is given back after being written, in either system of coordinates -/
example (convert : Bool) : ∃ ls,
    meshToObj byteText "tri".toList wasmSample.positions wasmSample.texCoords wasmSample.normals wasmSample.indices convert = .ok ls ∧
    objToMesh byteText ls convert = .ok wasmSample :=
  C86_back byteText_std "tri".toList convert wasmVertices wasmTriangles _ _ _ _ wasmSample_describes wasmSample_below
    (wasmSample_survives convert)

section
attribute [local instance] ieeeExact

/-- the least and greatest coordinates are 0 and 2, -2 and 1, and 0 and 1 -/
example : wasmSample.midpoint = [0x3f800000, 0xbf000000, 0x3f000000] := by decide +kernel

end

example : (∀ v ∈ wasmVertices, v.x.isNaN = false ∧ v.y.isNaN = false ∧ v.z.isNaN = false) ∧ wasmVertices ≠ [] := by
  decide

/-- a square that shares its normal and texture coordinate -/
def squareLines : List ObjLine :=
  [.object "a".toList,
    .v (byteText.show32 0) (byteText.show32 0) (byteText.show32 0),
    .v (byteText.show32 0x3f800000) (byteText.show32 0) (byteText.show32 0),
    .v (byteText.show32 0x3f800000) (byteText.show32 0x3f800000) (byteText.show32 0),
    .v (byteText.show32 0) (byteText.show32 0x3f800000) (byteText.show32 0),
    .vt (byteText.show32 0) (byteText.show32 0),
    .vn (byteText.show32 0) (byteText.show32 0) (byteText.show32 0x3f800000),
    .f [(1, some 1, some 1), (2, some 1, some 1), (3, some 1, some 1), (4, some 1, some 1)]]

/-- it meets the conditions of `C86_checked` and `C86_geometry`: two triangles of four vertices -/
example : ∃ m, objToMesh byteText squareLines true = .ok m ∧ ¬ (∀ f ∈ objPolygons squareLines, PlainTriangle f) ∧
    m.positions.length = 12 ∧ m.indices.length = 6 ∧ (fanCorners squareLines true).length = 6 := by
  refine ⟨⟨"a".toList, _, _, _, _⟩, rfl, ?_, by decide +kernel, by decide +kernel, by decide +kernel⟩
  unfold PlainTriangle
  decide +kernel

end Vpin
