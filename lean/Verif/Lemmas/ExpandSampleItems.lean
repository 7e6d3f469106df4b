import Verif.Lemmas.ExpandSample
import Verif.Lemmas.ExpandedItems
/-
The items and game data of the table of the example can be in files.
-/
namespace Vpin

theorem short_not_anim {U : Unicode} {name : Str} (h : name.length < 6) : ¬ AnimName U name := by
  rintro ⟨a, k, e⟩
  have := congrArg List.length e
  unfold escapedName at this
  rw [List.length_map, List.length_append, List.length_append] at this
  have h6 : "_anim_".toList.length = 6 := rfl
  omega

theorem exact_byteText {x : F32} (h : x.toF64.toF32 = x) : TextExact byteText x := ⟨_, byteText_show32 x, h⟩

set_option maxRecDepth 4000 in
theorem GameData.sample_json : GameData.sample.JsonOk fun _ => True := by
  constructor <;> decide +kernel

theorem expandPrimitive_mesh : expandPrimitive.readMesh plainZlib = .ok (some sampleMesh) := by decide +kernel

theorem expandFrames_fit : ∀ fr ∈ expandFrames, FrameFits sampleExpand .Obj "Prim".toList sampleMesh fr := by
  have h : ∀ fr ∈ expandFrames, fr.length = 2 ∧ (fr.flatMap FrameVertex.bytes).length < 4294967296 ∧ (∀ v ∈ fr,
      (v.nx.isNaN = false ∧ v.ny.isNaN = false ∧ v.nz.isNaN = false) ∧ v.x.toF64.toF32 = v.x ∧ v.y.toF64.toF32 = v.y ∧
      v.z.neg.toF64.toF32 = v.z.neg ∧ v.nx.toF64.toF32 = v.nx ∧ v.ny.toF64.toF32 = v.ny ∧
      v.nz.neg.toF64.toF32 = v.nz.neg) := by decide +kernel
  intro fr hfr
  obtain ⟨h1, h2, h3⟩ := h fr hfr
  refine ⟨h1, h2, fun v hv => (h3 v hv).1, fun v hv => ?_⟩
  obtain ⟨-, a, b, c, d, e, f⟩ := h3 v hv
  exact ⟨exact_byteText a, exact_byteText b, exact_byteText c, exact_byteText d, exact_byteText e, exact_byteText f⟩

theorem expandPrimitive_ok : expandPrimitive.Expandable sampleExpand .Obj where
  name := by decide
  notAnim := short_not_anim (by decide)
  mesh := ⟨some sampleMesh, expandPrimitive_mesh, by
    intro m e
    cases e
    exact ⟨trivial, sampleMesh_ok.2.1, sampleMesh_ok.2.2⟩⟩
  frames := .inr ⟨sampleMesh, _, _, expandFrames, expandPrimitive_mesh, rfl, rfl, by decide, rfl, by decide +kernel,
    expandFrames_fit⟩

theorem samplePrimitive_ok {name : Str} (h1 : name ≠ "json".toList) (h2 : name.length < 6) :
    ({ samplePrimitive with name := name } : Primitive).Expandable sampleExpand .Obj where
  name := h1
  notAnim := short_not_anim h2
  mesh := ⟨some sampleMesh, expandPrimitive_mesh, by
    intro m e
    cases e
    exact ⟨trivial, sampleMesh_ok.2.1, sampleMesh_ok.2.2⟩⟩
  frames := .inl rfl

theorem defaultPrimitive_ok {name : Str} (h1 : name ≠ "json".toList) (h2 : name.length < 6) :
    ({ Primitive.default with name := name } : Primitive).Expandable sampleExpand .Obj where
  name := h1
  notAnim := short_not_anim h2
  mesh := ⟨none, rfl, fun m e => by cases e⟩
  frames := .inl rfl

theorem Primitive.default_json : Primitive.default.JsonOk fun _ => True := by
  constructor <;> decide +kernel

theorem Primitive.JsonOk.rename {keeps : F32 → Prop} {p : Primitive} (h : p.JsonOk keeps) (name : Str) :
    ({ p with name := name } : Primitive).JsonOk keeps :=
  ⟨h.1, h.2, h.3, h.4, h.5, h.6, h.7, h.8, h.9, h.10, h.11, h.12, h.13, h.14, h.15, h.16, h.17, h.18, h.19⟩

theorem Primitive.JsonOk.setMesh {keeps : F32 → Prop} {p : Primitive} (h : p.JsonOk keeps) (Z : Zlib) (n : Nat)
    (bs : Bytes) (faces : List Face) : (p.setMesh Z n bs faces).JsonOk keeps :=
  ⟨h.1, h.2, h.3, h.4, h.5, h.6, h.7, h.8, h.9, h.10, h.11, h.12, h.13, h.14, h.15, h.16, h.17, h.18, h.19⟩

theorem Primitive.JsonOk.setFrames {keeps : F32 → Prop} {p : Primitive} (h : p.JsonOk keeps) (Z : Zlib)
    (frames : List (List FrameVertex)) : (p.setFrames Z frames).JsonOk keeps :=
  ⟨h.1, h.2, h.3, h.4, h.5, h.6, h.7, h.8, h.9, h.10, h.11, h.12, h.13, h.14, h.15, h.16, h.17, h.18, h.19⟩

theorem samplePrimitive_json : samplePrimitive.JsonOk fun _ => True := Primitive.default_json.setMesh _ _ _ _

end Vpin
