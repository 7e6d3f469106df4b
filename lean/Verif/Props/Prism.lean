import Verif.Lemmas.Prism
/-
C69: the mesh of a primitive without a mesh of its own, and which mesh a primitive is shown with.
-/
namespace Vpin
open Arith

section
variable [Arith]

/-- **C69**: with at least three sides a prism is built; its faces are those of the sides in turn, each
followed by the same faces seen from inside if these are wanted. With fewer there is none. It never fails. -/
theorem C69_prism (sides : UInt32) (inside : Bool) :
    (sides.toNat < 3 → buildBuiltinPrimitiveMesh sides inside = .ok none) ∧
    (3 ≤ sides.toNat → ∃ vs, PrismVertices sides.toNat vs ∧
      buildBuiltinPrimitiveMesh sides inside = .ok (some (vs, (List.range sides.toNat).flatMap fun i =>
        prismSide sides.toNat i ++ if inside then (prismSide sides.toNat i).map Tri.flip else []))) := by
  have hlt : sides < 3 ↔ sides.toNat < 3 := by
    rw [UInt32.lt_iff_toNat_lt]; exact Iff.rfl
  constructor
  · intro h
    unfold buildBuiltinPrimitiveMesh
    rw [if_pos (hlt.2 h)]
    rfl
  · intro h
    obtain ⟨vs, hb, hv⟩ := builtin_eq sides inside (by rw [hlt]; omega)
    refine ⟨vs, hv, ?_⟩
    rw [hb]
    congr 3
    exact flatMap_congr_range fun i hi => builtinFaces_eq hi inside

/-- **C69**: the corners of the sides are at the places of the corners of the top and the bottom. -/
theorem C69_places {n : Nat} {vs : List Vertex} (h : PrismVertices n vs) {k : Nat} {v : Vertex}
    (hk : vs[k]? = some v) : ∃ w, vs[prismWeld n k]? = some w ∧ w.place = v.place := by
  have hlt : k < 4 * n + 2 := by
    rw [← h.count]; exact (List.getElem?_eq_some_iff.1 hk).1
  unfold prismWeld
  by_cases h1 : 2 * n + 2 ≤ k ∧ k < 3 * n + 2
  · rw [if_pos h1]
    obtain ⟨i, hi, rfl⟩ : ∃ i, i < n ∧ k = 2 * n + 2 + i := ⟨k - (2 * n + 2), by omega, by omega⟩
    have a := h.sideTop i hi
    have b := h.top i hi
    dsimp only [prism] at a b
    rw [hk] at a
    cases a
    have e : 2 * n + 2 + i - (2 * n + 2) + 1 = 1 + i := by omega
    rw [e]
    exact ⟨_, b, rfl⟩
  · rw [if_neg h1]
    by_cases h2 : 3 * n + 2 ≤ k ∧ k < 4 * n + 2
    · rw [if_pos h2]
      obtain ⟨i, hi, rfl⟩ : ∃ i, i < n ∧ k = 3 * n + 2 + i := ⟨k - (3 * n + 2), by omega, by omega⟩
      have a := h.sideBottom i hi
      have b := h.bottom i hi
      dsimp only [prism] at a b
      rw [hk] at a
      cases a
      have e : 3 * n + 2 + i - (3 * n + 2) + (n + 2) = n + 2 + i := by omega
      rw [e]
      exact ⟨_, b, rfl⟩
    · rw [if_neg h2]
      exact ⟨v, hk, rfl⟩

end

/-- **C69**: glued along these corners the outer faces are a closed surface. -/
theorem C69_closed {n : Nat} (h : 3 ≤ n) :
    ClosedSurface (((List.range n).flatMap (prismSide n)).map (Tri.map (prismWeld n))) := prism_closed h

/-- **C69**: all faces have three different corners among the vertices, and there are four for each side. -/
theorem C69_indices {n : Nat} (h : 3 ≤ n) :
    let ts := (List.range n).flatMap (prismSide n)
    InRange (4 * n + 2) ts ∧ (∀ t ∈ ts, t.Proper) ∧ ts.length = 4 * n := by
  dsimp only
  refine ⟨?_, ?_, ?_⟩
  · intro t ht
    obtain ⟨i, hi, ht⟩ := List.mem_flatMap.1 ht
    have hi := List.mem_range.1 hi
    have hk : nextSide n i < n := Nat.mod_lt _ (by omega)
    simp only [prismSide, prism, List.mem_cons, List.not_mem_nil, or_false] at ht
    rcases ht with rfl | rfl | rfl | rfl <;> dsimp only <;> omega
  · intro t ht
    obtain ⟨i, hi, ht⟩ := List.mem_flatMap.1 ht
    have hi := List.mem_range.1 hi
    have hk := next_cases hi
    simp only [prismSide, prism, nextSide, List.mem_cons, List.not_mem_nil, or_false] at ht
    rcases ht with rfl | rfl | rfl | rfl <;> simp only [Tri.Proper] <;> omega
  · rw [flatMap_range_length (c := 4) fun i _ => rfl]

/-- **C69**: with the inner faces, every face is there from both sides. -/
theorem C69_inside (n : Nat) :
    ((List.range n).flatMap fun i => prismSide n i ++ (prismSide n i).map Tri.flip).Perm
      ((List.range n).flatMap (prismSide n) ++ ((List.range n).flatMap (prismSide n)).map Tri.flip) := by
  rw [List.map_flatMap]
  generalize List.range n = l
  induction l with
  | nil => exact List.Perm.refl _
  | cons i l ih =>
    simp only [List.flatMap_cons, List.append_assoc]
    refine List.Perm.append_left _ ?_
    refine (List.Perm.append_left _ ih).trans ?_
    rw [← List.append_assoc, ← List.append_assoc]
    exact List.Perm.append_right _ List.perm_append_comm

section
variable [Arith]

/-- **C69**: a primitive is shown with its own mesh if it is meant to have one, and otherwise with the
prism, even if there is a mesh. -/
theorem C69_effective (Z : Zlib) (p : Primitive) :
    (p.use_3d_mesh = true → effectivePrimitiveMesh Z p = p.readMesh Z) ∧
    (p.use_3d_mesh = false → p.sides.toNat < 3 → effectivePrimitiveMesh Z p = .ok none) ∧
    (p.use_3d_mesh = false → 3 ≤ p.sides.toNat → ∃ m vs, effectivePrimitiveMesh Z p = .ok (some m) ∧
      m.vertices.map (·.vertex) = vs ∧ PrismVertices p.sides.toNat vs ∧
      m.faces = ((List.range p.sides.toNat).flatMap fun i => prismSide p.sides.toNat i ++
        if p.draw_textures_inside then (prismSide p.sides.toNat i).map Tri.flip else []).map
          fun t => ⟨t.1, t.2.1, t.2.2⟩) := by
  obtain ⟨hno, hyes⟩ := C69_prism p.sides p.draw_textures_inside
  refine ⟨?_, ?_, ?_⟩
  · intro h
    unfold effectivePrimitiveMesh
    rw [h]; rfl
  · intro h hs
    unfold effectivePrimitiveMesh
    rw [h, hno hs]; rfl
  · intro h hs
    obtain ⟨vs, hv, hb⟩ := hyes hs
    unfold effectivePrimitiveMesh
    rw [h, hb]
    refine ⟨_, vs, rfl, ?_, hv, rfl⟩
    rw [List.map_map]
    exact List.map_id' _

end

/-! ### Concrete cases -/

section
attribute [local instance] ieeeExact

/-- a primitive with four sides -/
example : ((buildBuiltinPrimitiveMesh 4 false).toOption.bind fun r => r.map fun (vs, ts) =>
    (vs.length, ts.length, ts.take 4)) =
      some (18, 16, [(0, 2, 1), (5, 6, 7), (11, 14, 10), (11, 15, 14)]) := by decide +kernel

/-- with the faces seen from inside: those of the last side -/
example : ((buildBuiltinPrimitiveMesh 4 true).toOption.bind fun r => r.map fun (vs, ts) =>
    (vs.length, ts.length, ts.drop 24)) =
      some (18, 32, [(0, 1, 4), (5, 9, 6), (10, 17, 13), (10, 14, 17),
        (0, 4, 1), (5, 6, 9), (10, 13, 17), (10, 17, 14)]) := by decide +kernel

/-- the default primitive -/
example : Primitive.default.use_3d_mesh = false ∧ 3 ≤ Primitive.default.sides.toNat := by decide

end
end Vpin
