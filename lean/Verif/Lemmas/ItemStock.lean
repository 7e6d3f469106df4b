import Verif.Lemmas.ItemMesh
/-
All meshes of items, with any tables whose triangles use vertices of the table.
-/
namespace Vpin
open Scene

section
variable [Arith]
open Arith

theorem flipper_inside {A : ItemFns} {T : MeshTables} (hT : T.Inside) {f : Flipper} {h : F32} {c base rubber}
    (he : buildFlipperMeshesUnchecked A T f h = some (c, base, rubber)) :
    MeshInside base ∧ ∀ m, rubber = some m → MeshInside m := by
  have key : ∀ g : Vertex → Vertex,
      MeshInside ⟨T.flipperBase.vertices.map g, T.flipperBase.tris.map Tri.face⟩ := by
    intro g
    unfold MeshInside
    rw [List.length_map]
    exact tris_inside hT.flipperBase
  unfold buildFlipperMeshesUnchecked at he
  cases he
  refine ⟨key _, ?_⟩
  intro m hm
  split at hm
  · cases hm; exact key _
  · cases hm

theorem plunger_inside (A : ItemFns) (p : Plunger) (m : RawMesh)
    (h : some m ∈ [(buildPlungerMeshes A p).flat_rod, (buildPlungerMeshes A p).rod, (buildPlungerMeshes A p).spring,
      (buildPlungerMeshes A p).ring, (buildPlungerMeshes A p).tip]) : MeshInside m := by
  unfold buildPlungerMeshes at h
  split at h
  · simp at h
  · split at h <;> simp only [List.mem_cons, List.not_mem_nil, or_false, Option.some.injEq, reduceCtorEq, false_or] at h
    · rw [h]; exact flatRodMesh_inside p
    · rw [h]; exact flatRodMesh_inside p
    · rcases h with h | h | h | h
      · rw [h]; exact rodMesh_inside A p
      · rw [h]; exact (springMesh_spec A p).2
      · rw [h]; exact collarMesh_inside A p
      · rw [h]; exact tipMesh_inside A p
    · rcases h with h | h | h | h
      · rw [h]; exact rodMesh_inside A p
      · rw [h]; exact (springMesh_spec A p).2
      · rw [h]; exact collarMesh_inside A p
      · rw [h]; exact tipMesh_inside A p

theorem itemStock_inside {A : ItemFns} {T : MeshTables} (hT : T.Inside) {fuel : Nat} :
    GltfStockInside (itemStock A T fuel) where
  bumper b m hm := by
    obtain ⟨o, ho, rfl⟩ := List.mem_filterMap.1 hm
    simp only [itemStock, buildBumperMeshes, List.mem_cons, List.not_mem_nil, or_false] at ho
    rcases ho with ho | ho | ho | ho <;> split at ho <;> cases ho
    · exact table_inside hT.bumperBase _ _
    · exact table_inside hT.bumperRing _ _
    · exact table_inside hT.bumperSocket _ _
    · exact table_inside hT.bumperCap _ _
  plunger p m hm := by
    obtain ⟨o, ho, rfl⟩ := List.mem_filterMap.1 hm
    exact plunger_inside A p m (by simpa [itemStock] using ho)
  flipper f c base rubber h := flipper_inside hT h
  gate g bracket wire h := by
    simp only [itemStock, buildGateMeshesUnchecked, Option.some.injEq, Prod.mk.injEq] at h
    obtain ⟨rfl, rfl⟩ := h
    refine ⟨table_inside (hT.gate _) _ _, ?_⟩
    intro m hm
    split at hm
    · cases hm; exact table_inside hT.gateBracket _ _
    · cases hm
  kicker k m hm := by
    simp only [itemStock, buildKickerMeshes] at hm
    split at hm
    · cases hm
    · simp only [List.filterMap_cons, List.filterMap_nil, id, List.mem_cons, List.not_mem_nil, or_false] at hm
      rcases hm with rfl | rfl
      · have := table_inside hT.kickerPlate (scaledPoint (kickerPlateRadius k)) id
        unfold kickerPlateMesh MeshInside
        unfold MeshInside at this
        simpa using this
      · exact table_inside (hT.kicker k) _ _
  spinner s := by
    refine ⟨table_inside hT.spinnerPlate _ _, ?_⟩
    intro m hm
    simp only [itemStock, buildSpinnerMeshes] at hm
    split at hm
    · cases hm; exact table_inside hT.spinnerBracket _ _
    · cases hm
  hitTarget h m hm := by
    simp only [itemStock, buildHitTargetMeshUnchecked, Option.some.injEq] at hm
    subst hm
    exact table_inside (hT.hitTarget _) _ _
  trigger t m hm := by
    simp only [itemStock, buildTriggerMesh] at hm
    split at hm
    · cases hm
    · obtain ⟨table, h1, rfl⟩ := Option.map_eq_some_iff.1 hm
      unfold MeshInside
      rw [List.length_map]
      exact tris_inside (hT.trigger _ _ h1)
  flasher f d m c h := by
    simp only [itemStock, orNone] at h
    split at h
    · rename_i r he; subst h; exact flasher_inside he
    · cases h
  light l a b h m hm := by
    simp only [itemStock, buildLightMeshes] at h
    split at h
    · cases h
    · split at h
      · cases h
      · simp only [Option.some.injEq, Prod.mk.injEq] at h
        obtain ⟨rfl, rfl⟩ := h
        rcases hm with hm | hm <;> cases hm
        · exact table_inside hT.bulbLight _ _
        · exact table_inside hT.bulbSocket _ _
  insert l d m c h := by
    simp only [itemStock, orNone] at h
    split at h
    · rename_i r he; subst h; exact insert_inside he
    · cases h
  decal d m h := by
    simp only [itemStock, buildDecalMesh] at h
    split at h
    · cases h
    · split at h
      · cases h
      · split at h
        · cases h
        · cases h
          intro f hf i hi
          simp only [List.mem_cons, List.not_mem_nil, or_false] at hf
          rcases hf with rfl | rfl <;> simp only [List.mem_cons, List.not_mem_nil, or_false] at hi <;>
            rcases hi with rfl | rfl | rfl <;> exact ⟨by decide, (by decide : (_ : Int) < 4)⟩
  ball b := table_inside hT.ball _ _

end
end Vpin
