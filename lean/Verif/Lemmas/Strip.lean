import Verif.Model.RampMesh
import Verif.Lemmas.RubberMesh
import Verif.Spec.Ramp
/-
Strips and open tubes as surfaces with a rim.
-/
namespace Vpin

theorem loopEdges_path (l : List Nat) : loopEdges l = pathEdges (l ++ l.take 1) := by
  cases l with
  | nil => rfl
  | cons x xs => rw [loopEdges_cons]; rfl

/-- two more corners between `a` and `b` -/
theorem esum_loop_insert (f) (l r : List Nat) (a b x y : Nat) :
    esum f (loopEdges (l ++ a :: x :: y :: b :: r)) =
      esum f (loopEdges (l ++ a :: b :: r)) - f a b + f a x + f x y + f y b := by
  rw [loopEdges_path, loopEdges_path]
  have e1 : (l ++ a :: x :: y :: b :: r).take 1 = (l ++ a :: b :: r).take 1 := by
    cases l <;> rfl
  rw [e1]
  generalize (l ++ a :: b :: r).take 1 = h
  rw [List.append_assoc, List.append_assoc]
  simp only [List.cons_append]
  rw [pathEdges_append l a (x :: y :: b :: (r ++ h)), pathEdges_append l a (b :: (r ++ h))]
  simp only [esum_append, pathEdges, esum_cons]
  omega

/-- the sum over the outline of a strip -/
theorem esum_stripRim (f) (n : Nat) :
    esum f (loopEdges (stripRim (n + 1))) = f (2 * n + 1) (2 * n) + f 0 1 +
      ((List.range n).map fun i => f (2 * i + 1) (2 * i + 3) + f (2 * i + 2) (2 * i)).sum := by
  induction n with
  | zero =>
    have : stripRim 1 = [1, 0] := rfl
    rw [this]
    simp [loopEdges, esum_cons, esum_nil]
  | succ n ih =>
    have e0 : stripRim (n + 1) = (List.range n).map (fun i => 2 * i + 1) ++ (2 * n + 1) :: (2 * n) ::
        ((List.range n).map (fun i => 2 * i)).reverse := by
      simp [stripRim, List.range_succ]
    have e1 : stripRim (n + 1 + 1) = (List.range n).map (fun i => 2 * i + 1) ++ (2 * n + 1) ::
        (2 * (n + 1) + 1) :: (2 * (n + 1)) :: (2 * n) :: ((List.range n).map (fun i => 2 * i)).reverse := by
      simp [stripRim, List.range_succ]
    rw [e1, esum_loop_insert, ← e0, ih, List.range_succ, List.map_append, List.sum_append]
    simp only [List.map_cons, List.map_nil, List.sum_cons, List.sum_nil]
    have h1 : 2 * (n + 1) + 1 = 2 * n + 3 := by omega
    have h2 : 2 * (n + 1) = 2 * n + 2 := by omega
    rw [h1, h2]
    omega

theorem sum_telescope (g : Nat → Int) (n : Nat) :
    ((List.range n).map fun i => g i + - g (i + 1)).sum = g 0 - g n := by
  induction n with
  | zero => simp
  | succ n ih => rw [List.range_succ, List.map_append, List.sum_append, ih]; simp; omega

theorem esum_strip (f) (hf : Antisym f) (n : Nat) :
    esum f (triEdges (stripTris (n + 1))) = esum f (loopEdges (stripRim (n + 1))) := by
  rw [esum_stripRim, stripTris, Nat.add_sub_cancel, triEdges_flatMap, esum_flatMap]
  have cell : ∀ i, esum f (triEdges [(i * 2, i * 2 + 1, i * 2 + 3), (i * 2, i * 2 + 3, i * 2 + 2)]) =
      ((fun i => f (2 * i) (2 * i + 1)) i + - (fun i => f (2 * i) (2 * i + 1)) (i + 1)) +
        (f (2 * i + 1) (2 * i + 3) + f (2 * i + 2) (2 * i)) := by
    intro i
    simp only [triEdges, Tri.edges, List.flatMap_cons, List.flatMap_nil, List.cons_append,
      List.nil_append, List.append_nil, esum_cons, esum_nil]
    have h1 := hf (2 * i + 3) (2 * i)
    have h2 := hf (2 * i + 3) (2 * i + 2)
    have e1 : 2 * (i + 1) = 2 * i + 2 := by omega
    rw [Nat.mul_comm i 2, e1, show 2 * i + 2 + 1 = 2 * i + 3 from rfl]
    omega
  rw [sum_map_congr fun i _ => cell i, sum_map_add, sum_telescope fun i => f (2 * i) (2 * i + 1)]
  have h := hf (2 * n) (2 * n + 1)
  simp only [Nat.mul_zero, Nat.zero_add]
  omega

theorem strip_nodup (n : Nat) : (triEdges (stripTris n)).Nodup := by
  rw [stripTris, triEdges_flatMap]
  unfold List.Nodup
  rw [List.pairwise_flatMap]
  constructor
  · intro i _
    simp [triEdges, Tri.edges]
  · refine List.pairwise_lt_range.imp_of_mem ?_
    intro i k _ _ hlt e1 h1 e2 h2
    simp only [triEdges, Tri.edges, List.flatMap_cons, List.flatMap_nil, List.cons_append,
      List.nil_append, List.append_nil, List.mem_cons, List.not_mem_nil, or_false] at h1 h2
    rcases h1 with rfl | rfl | rfl | rfl | rfl | rfl <;>
      rcases h2 with rfl | rfl | rfl | rfl | rfl | rfl <;>
      simp only [ne_eq, Prod.mk.injEq] <;> omega

theorem strip_surface {n : Nat} (h1 : 1 ≤ n) : SurfaceWithRim (stripTris n) (stripRim n) := by
  refine ⟨strip_nodup n, ?_⟩
  rw [balanced_iff]
  intro f hf
  obtain ⟨n, rfl⟩ : ∃ m, n = m + 1 := ⟨n - 1, by omega⟩
  rw [esum_append, esum_strip f hf, esum_loop_reverse f hf]
  omega

theorem strip_inRange (n : Nat) :
    InRange (2 * n) (stripTris n) ∧ ∀ t ∈ stripTris n, t.Proper := by
  constructor
  all_goals
    intro t ht
    obtain ⟨i, hi, ht⟩ := List.mem_flatMap.1 ht
    have hi := List.mem_range.1 hi
    simp only [List.mem_cons, List.not_mem_nil, or_false] at ht
    rcases ht with rfl | rfl
    · simp only [Tri.Proper]; omega
    · simp only [Tri.Proper]; omega

theorem strip_length (n : Nat) : (stripTris n).length = 2 * (n - 1) := by
  rw [stripTris, flatMap_range_length (c := 2)]
  intro i _; rfl

/-! ### Open tubes -/

theorem wireTris_eq (R S : Nat) : wireTris R S = (List.range (R - 1)).flatMap fun i =>
    (List.range S).flatMap fun j => [(i * S + j, i * S + (j + 1) % S, (i + 1) * S + j),
      ((i + 1) * S + (j + 1) % S, (i + 1) * S + j, i * S + (j + 1) % S)] := by
  unfold wireTris
  rw [List.flatMap_def, List.flatMap_def]
  congr 1
  apply List.map_congr_left
  intro i hi
  have hi := List.mem_range.1 hi
  rw [List.flatMap_def, List.flatMap_def]
  congr 1
  apply List.map_congr_left
  intro j hj
  rw [rubberCell_eq (show i < R by omega) (List.mem_range.1 hj), Nat.mod_eq_of_lt (show i + 1 < R by omega)]

/-- the torus with one more ring contains the open tube -/
theorem torus_prefix (R S : Nat) : ∃ ts, torusTris (R + 1) S = wireTris R S ++ ts := by
  have e : List.range (R + 1) = List.range (R - 1) ++ List.range' (R - 1) (R + 1 - (R - 1)) := by
    have := List.range'_append (s := 0) (m := R - 1) (n := R + 1 - (R - 1)) (step := 1)
    rw [Nat.one_mul, Nat.zero_add] at this
    rw [List.range_eq_range', List.range_eq_range', this]
    congr 1; omega
  refine ⟨(List.range' (R - 1) (R + 1 - (R - 1))).flatMap fun i => (List.range S).flatMap fun j =>
    [(i * S + j, i * S + (j + 1) % S, (i + 1) % (R + 1) * S + j),
      ((i + 1) % (R + 1) * S + (j + 1) % S, (i + 1) % (R + 1) * S + j, i * S + (j + 1) % S)], ?_⟩
  rw [torusTris, e, List.flatMap_append, wireTris_eq]
  congr 1
  rw [List.flatMap_def, List.flatMap_def]
  congr 1
  apply List.map_congr_left
  intro i hi
  have hi := List.mem_range.1 hi
  rw [Nat.mod_eq_of_lt (show i + 1 < R + 1 by omega)]

theorem wire_nodup {R S : Nat} (hR : 2 ≤ R) (hS : 3 ≤ S) : (triEdges (wireTris R S)).Nodup := by
  obtain ⟨ts, hts⟩ := torus_prefix R S
  have := torus_nodup (R := R + 1) (S := S) (by omega) hS
  rw [hts, triEdges_append] at this
  exact (List.nodup_append.1 this).1

theorem wire_inRange (R S : Nat) : InRange (R * S) (wireTris R S) := by
  rw [wireTris_eq]
  intro t ht
  obtain ⟨i, hi, ht⟩ := List.mem_flatMap.1 ht
  obtain ⟨j, hj, ht⟩ := List.mem_flatMap.1 ht
  have hi := List.mem_range.1 hi
  have hj := List.mem_range.1 hj
  have hi0 : i < R := by omega
  have hi' : i + 1 < R := by omega
  have hj' : (j + 1) % S < S := Nat.mod_lt _ (by omega)
  simp only [List.mem_cons, List.not_mem_nil, or_false] at ht
  rcases ht with rfl | rfl
  · exact ⟨cell_lt hi0 hj, cell_lt hi0 hj', cell_lt hi' hj⟩
  · exact ⟨cell_lt hi' hj', cell_lt hi' hj, cell_lt hi0 hj'⟩

theorem wire_length (R S : Nat) : (wireTris R S).length = 2 * ((R - 1) * S) := by
  rw [wireTris_eq, flatMap_range_length (c := 2 * S) fun i _ => flatMap_range_length (c := 2) fun j _ => rfl,
    Nat.mul_assoc, Nat.mul_comm S]

theorem esum_ring (f) (S i : Nat) : esum f (loopEdges ((List.range S).map (i * S + ·))) =
    ((List.range S).map fun j => f (i * S + j) (i * S + (j + 1) % S)).sum := by
  rw [loopEdges_map, esum_map, loopEdges_range, esum]
  simp [Function.comp_def]

theorem esum_wire (f) (hf : Antisym f) (R S : Nat) : esum f (triEdges (wireTris R S)) =
    esum f (loopEdges ((List.range S).map (0 * S + ·))) -
      esum f (loopEdges ((List.range S).map ((R - 1) * S + ·))) := by
  rw [wireTris_eq, triEdges_flatMap, esum_flatMap, esum_ring, esum_ring]
  have ring : ∀ i, esum f (triEdges ((List.range S).flatMap fun j =>
      [(i * S + j, i * S + (j + 1) % S, (i + 1) * S + j),
        ((i + 1) * S + (j + 1) % S, (i + 1) * S + j, i * S + (j + 1) % S)])) =
      (fun i => ((List.range S).map fun j => f (i * S + j) (i * S + (j + 1) % S)).sum) i +
        - (fun i => ((List.range S).map fun j => f (i * S + j) (i * S + (j + 1) % S)).sum) (i + 1) := by
    intro i
    rw [triEdges_flatMap, esum_flatMap]
    have cell : ∀ j, esum f (triEdges
        [(i * S + j, i * S + (j + 1) % S, (i + 1) * S + j),
          ((i + 1) * S + (j + 1) % S, (i + 1) * S + j, i * S + (j + 1) % S)]) =
        (f (i * S + j) (i * S + (j + 1) % S) +
          - f ((i + 1) * S + j) ((i + 1) * S + (j + 1) % S)) +
        ((fun j => f (i * S + j) ((i + 1) * S + j)) ((j + 1) % S) +
          - (fun j => f (i * S + j) ((i + 1) * S + j)) j) := by
      intro j
      simp only [triEdges, Tri.edges, List.flatMap_cons, List.flatMap_nil, List.cons_append,
        List.nil_append, List.append_nil, esum_cons, esum_nil]
      have h1 := hf ((i + 1) * S + j) (i * S + j)
      have h2 := hf ((i + 1) * S + (j + 1) % S) ((i + 1) * S + j)
      have h3 := hf ((i + 1) * S + j) (i * S + (j + 1) % S)
      omega
    rw [sum_map_congr fun j _ => cell j, sum_map_add, sum_map_add, sum_map_add, sum_map_neg,
      sum_map_neg, sum_next S fun j => f (i * S + j) ((i + 1) * S + j)]
    dsimp only
    omega
  rw [sum_map_congr fun i _ => ring i, sum_telescope fun i =>
    ((List.range S).map fun j => f (i * S + j) (i * S + (j + 1) % S)).sum]

/-- an open tube: with both end rings it leaves nothing open -/
theorem wire_balanced (R S : Nat) : Balanced (triEdges (wireTris R S) ++
    loopEdges (List.range S).reverse ++ loopEdges ((List.range S).map ((R - 1) * S + ·))) := by
  rw [balanced_iff]
  intro f hf
  have e : (List.range S).map (0 * S + ·) = List.range S := by simp
  rw [esum_append, esum_append, esum_loop_reverse f hf, esum_wire f hf, e]
  omega

end Vpin
