import Verif.Lemmas.Extrude
import Verif.Lemmas.MeshList
/-
Closed surfaces made of rings: the triangles of a torus.
-/
namespace Vpin

/-- the two triangles of every cell of a torus of `R` rings with `S` vertices each; vertex `j` of ring
`i` has number `i * S + j` -/
def torusTris (R S : Nat) : List Tri := (List.range R).flatMap fun i => (List.range S).flatMap fun j =>
  [(i * S + j, i * S + (j + 1) % S, (i + 1) % R * S + j),
    ((i + 1) % R * S + (j + 1) % S, (i + 1) % R * S + j, i * S + (j + 1) % S)]

theorem cell_lt {R S i j : Nat} (hi : i < R) (hj : j < S) : i * S + j < R * S := by
  have : (i + 1) * S ≤ R * S := Nat.mul_le_mul_right S hi
  rw [Nat.add_mul, Nat.one_mul] at this
  omega

theorem torusTris_inRange (R S : Nat) : InRange (R * S) (torusTris R S) := by
  intro t ht
  obtain ⟨i, hi, ht⟩ := List.mem_flatMap.1 ht
  obtain ⟨j, hj, ht⟩ := List.mem_flatMap.1 ht
  have hi := List.mem_range.1 hi
  have hj := List.mem_range.1 hj
  have hi' : (i + 1) % R < R := Nat.mod_lt _ (by omega)
  have hj' : (j + 1) % S < S := Nat.mod_lt _ (by omega)
  simp only [List.mem_cons, List.not_mem_nil, or_false] at ht
  rcases ht with rfl | rfl
  · exact ⟨cell_lt hi hj, cell_lt hi hj', cell_lt hi' hj⟩
  · exact ⟨cell_lt hi' hj', cell_lt hi' hj, cell_lt hi hj'⟩

theorem torusTris_length (R S : Nat) : (torusTris R S).length = 2 * (R * S) := by
  rw [torusTris, flatMap_range_length (c := 2 * S) fun i _ => flatMap_range_length (c := 2) fun j _ => rfl,
    Nat.mul_assoc, Nat.mul_comm S R]

theorem sum_map_congr {l : List Nat} {f g : Nat → Int} (h : ∀ i ∈ l, f i = g i) :
    (l.map f).sum = (l.map g).sum := by rw [List.map_congr_left h]

theorem esum_torus (f) (hf : Antisym f) (R S : Nat) : esum f (triEdges (torusTris R S)) = 0 := by
  rw [torusTris, triEdges_flatMap, esum_flatMap]
  -- the sum over one ring
  have ring : ∀ i, esum f (triEdges ((List.range S).flatMap fun j =>
      [(i * S + j, i * S + (j + 1) % S, (i + 1) % R * S + j),
        ((i + 1) % R * S + (j + 1) % S, (i + 1) % R * S + j, i * S + (j + 1) % S)])) =
      (fun i => ((List.range S).map fun j => f (i * S + j) (i * S + (j + 1) % S)).sum) i +
        - (fun i => ((List.range S).map fun j => f (i * S + j) (i * S + (j + 1) % S)).sum)
          ((i + 1) % R) := by
    intro i
    rw [triEdges_flatMap, esum_flatMap]
    have cell : ∀ j, esum f (triEdges
        [(i * S + j, i * S + (j + 1) % S, (i + 1) % R * S + j),
          ((i + 1) % R * S + (j + 1) % S, (i + 1) % R * S + j, i * S + (j + 1) % S)]) =
        (f (i * S + j) (i * S + (j + 1) % S) +
          - f ((i + 1) % R * S + j) ((i + 1) % R * S + (j + 1) % S)) +
        ((fun j => f (i * S + j) ((i + 1) % R * S + j)) ((j + 1) % S) +
          - (fun j => f (i * S + j) ((i + 1) % R * S + j)) j) := by
      intro j
      simp only [triEdges, Tri.edges, List.flatMap_cons, List.flatMap_nil, List.cons_append,
        List.nil_append, List.append_nil, esum_cons, esum_nil]
      have h1 := hf ((i + 1) % R * S + j) (i * S + j)
      have h2 := hf ((i + 1) % R * S + (j + 1) % S) ((i + 1) % R * S + j)
      have h3 := hf ((i + 1) % R * S + j) (i * S + (j + 1) % S)
      omega
    rw [sum_map_congr fun j _ => cell j, sum_map_add, sum_map_add, sum_map_add, sum_map_neg,
      sum_map_neg, sum_next S fun j => f (i * S + j) ((i + 1) % R * S + j)]
    dsimp only
    omega
  rw [sum_map_congr fun i _ => ring i, sum_map_add, sum_map_neg,
    sum_next R fun i => ((List.range S).map fun j => f (i * S + j) (i * S + (j + 1) % S)).sum]
  omega

theorem torusTris_balanced (R S : Nat) : Balanced (triEdges (torusTris R S)) :=
  (balanced_iff _).2 fun f hf => esum_torus f hf R S

/-- the edges of a cell, by ring and position -/
def cellEdges (i i' j j' : Nat) : List ((Nat × Nat) × (Nat × Nat)) :=
  [((i, j), (i, j')), ((i, j'), (i', j)), ((i', j), (i, j)),
    ((i', j'), (i', j)), ((i', j), (i, j')), ((i, j'), (i', j'))]

theorem decode_cell {S i j : Nat} (hj : j < S) : ((i * S + j) / S, (i * S + j) % S) = (i, j) := by
  have hS : 0 < S := by omega
  rw [Nat.mul_comm i S, Nat.mul_add_div hS, Nat.mul_add_mod, Nat.div_eq_of_lt hj, Nat.mod_eq_of_lt hj]
  simp

theorem torus_decode (R S : Nat) :
    (triEdges (torusTris R S)).map (fun e => ((e.1 / S, e.1 % S), (e.2 / S, e.2 % S))) =
      (List.range R).flatMap fun i => (List.range S).flatMap fun j =>
        cellEdges i ((i + 1) % R) j ((j + 1) % S) := by
  rw [torusTris, triEdges_flatMap, List.map_flatMap]
  rw [List.flatMap_def, List.flatMap_def]
  congr 1
  apply List.map_congr_left
  intro i _
  rw [triEdges_flatMap, List.map_flatMap, List.flatMap_def, List.flatMap_def]
  congr 1
  apply List.map_congr_left
  intro j hj
  have hj := List.mem_range.1 hj
  have hj' : (j + 1) % S < S := Nat.mod_lt _ (by omega)
  simp only [triEdges, Tri.edges, List.flatMap_cons, List.flatMap_nil, List.cons_append,
        List.nil_append, List.append_nil, List.map_cons, List.map_nil, decode_cell hj, decode_cell hj']
  rfl

theorem Nodup.of_map {f : α → β} {l : List α} (h : (l.map f).Nodup) : l.Nodup :=
  List.Pairwise.of_map f (fun _ _ h e => h (by rw [e])) h

theorem torus_nodup {R S : Nat} (hR : 3 ≤ R) (hS : 3 ≤ S) : (triEdges (torusTris R S)).Nodup := by
  apply Nodup.of_map (f := fun e => ((e.1 / S, e.1 % S), (e.2 / S, e.2 % S)))
  rw [torus_decode]
  unfold List.Nodup
  rw [List.pairwise_flatMap]
  constructor
  · intro i hi
    have hi := List.mem_range.1 hi
    rw [List.pairwise_flatMap]
    constructor
    · intro j hj
      have hj := List.mem_range.1 hj
      have a := next_cases hi
      have b := next_cases hj
      simp [cellEdges]
      omega
    · refine List.pairwise_lt_range.imp_of_mem ?_
      intro j k hj hk hlt e1 h1 e2 h2
      have hj := List.mem_range.1 hj
      have hk := List.mem_range.1 hk
      have a := next_cases hi
      have b := next_cases hj
      have c := next_cases hk
      simp only [cellEdges, List.mem_cons, List.not_mem_nil, or_false] at h1 h2
      rcases h1 with rfl | rfl | rfl | rfl | rfl | rfl <;>
        rcases h2 with rfl | rfl | rfl | rfl | rfl | rfl <;>
        simp only [ne_eq, Prod.mk.injEq] <;> omega
  · refine List.pairwise_lt_range.imp_of_mem ?_
    intro i i2 hi hi2 hlt e1 h1 e2 h2
    have hi := List.mem_range.1 hi
    have hi2 := List.mem_range.1 hi2
    obtain ⟨j, hj, h1⟩ := List.mem_flatMap.1 h1
    obtain ⟨k, hk, h2⟩ := List.mem_flatMap.1 h2
    have hj := List.mem_range.1 hj
    have hk := List.mem_range.1 hk
    have a := next_cases hi
    have a2 := next_cases hi2
    have b := next_cases hj
    have c := next_cases hk
    simp only [cellEdges, List.mem_cons, List.not_mem_nil, or_false] at h1 h2
    rcases h1 with rfl | rfl | rfl | rfl | rfl | rfl <;>
      rcases h2 with rfl | rfl | rfl | rfl | rfl | rfl <;>
      simp only [ne_eq, Prod.mk.injEq] <;> omega

theorem torus_closed {R S : Nat} (hR : 3 ≤ R) (hS : 3 ≤ S) : ClosedSurface (torusTris R S) :=
  ⟨torus_nodup hR hS, torusTris_balanced R S⟩

theorem torus_get {R S i j : Nat} (hi : i < R) (hj : j < S) :
    (torusTris R S)[2 * (i * S + j)]? =
        some (i * S + j, i * S + (j + 1) % S, (i + 1) % R * S + j) ∧
      (torusTris R S)[2 * (i * S + j) + 1]? =
        some ((i + 1) % R * S + (j + 1) % S, (i + 1) % R * S + j, i * S + (j + 1) % S) := by
  have hc : ∀ i < R, ((List.range S).flatMap fun j =>
      [(i * S + j, i * S + (j + 1) % S, (i + 1) % R * S + j),
        ((i + 1) % R * S + (j + 1) % S, (i + 1) % R * S + j, i * S + (j + 1) % S)]).length = 2 * S :=
    fun i _ => flatMap_range_length (c := 2) fun j _ => rfl
  have e : 2 * (i * S + j) = 2 * S * i + (2 * j + 0) := by
    rw [Nat.mul_add, Nat.mul_assoc, Nat.mul_comm i S]; omega
  have e' : 2 * (i * S + j) + 1 = 2 * S * i + (2 * j + 1) := by
    rw [Nat.mul_add, Nat.mul_assoc, Nat.mul_comm i S]; omega
  rw [e', e]
  unfold torusTris
  rw [flatMap_range_get hc hi (by omega), flatMap_range_get hc hi (by omega),
    flatMap_range_get (c := 2) (fun _ _ => rfl) hj (by omega),
    flatMap_range_get (c := 2) (fun _ _ => rfl) hj (by omega)]
  exact ⟨rfl, rfl⟩

end Vpin
