import Verif.Lemmas.Surface
import Verif.Spec.Wall
/-
Lemmas about surfaces: renaming corners, and the sides of a prism with a lid.
-/
namespace Vpin

theorem Tri.edges_map (g : Nat → Nat) (t : Tri) :
    Tri.edges (t.map g) = (Tri.edges t).map (Prod.map g g) := rfl

theorem triEdges_map (g : Nat → Nat) (ts : List Tri) :
    triEdges (ts.map (Tri.map g)) = (triEdges ts).map (Prod.map g g) := by
  induction ts with
  | nil => rfl
  | cons t ts ih => rw [List.map_cons, triEdges_cons, triEdges_cons, ih, List.map_append]; rfl

theorem loopEdges_map (g : Nat → Nat) (l : List Nat) :
    loopEdges (l.map g) = (loopEdges l).map (Prod.map g g) := by
  unfold loopEdges
  rw [← List.zip_map, List.map_append, List.map_tail, List.map_take]

theorem esum_map (f) (g : Nat → Nat) (es : List (Nat × Nat)) :
    esum f (es.map (Prod.map g g)) = esum (fun u v => f (g u) (g v)) es := by
  simp [esum, Function.comp_def]

theorem Antisym.comp {f} (hf : Antisym f) (g : Nat → Nat) : Antisym fun u v => f (g u) (g v) :=
  fun u v => hf (g u) (g v)

theorem Balanced.map {es} (h : Balanced es) (g : Nat → Nat) : Balanced (es.map (Prod.map g g)) := by
  rw [balanced_iff] at h ⊢
  intro f hf
  rw [esum_map]
  exact h _ (hf.comp g)

/-- the next corner of a polygon with `n` corners -/
theorem next_cases {n i : Nat} (hi : i < n) :
    (i + 1 < n ∧ (i + 1) % n = i + 1) ∨ (i + 1 = n ∧ (i + 1) % n = 0) := by
  by_cases h : i + 1 < n
  · exact Or.inl ⟨h, Nat.mod_eq_of_lt h⟩
  · have : i + 1 = n := by omega
    exact Or.inr ⟨this, by rw [this, Nat.mod_self]⟩

theorem loopEdges_range (n : Nat) :
    loopEdges (List.range n) = (List.range n).map fun i => (i, (i + 1) % n) := by
  apply List.ext_getElem?
  intro i
  unfold loopEdges
  by_cases hi : i < n
  · rw [List.getElem?_map, List.getElem?_range hi, Option.map_some]
    rw [List.getElem?_zip_eq_some]
    refine ⟨List.getElem?_range hi, ?_⟩
    dsimp only
    rcases next_cases hi with ⟨h1, h2⟩ | ⟨h1, h2⟩
    · rw [h2, List.getElem?_append_left (by simp; omega)]
      rw [List.getElem?_tail, List.getElem?_range h1]
    · rw [h2, List.getElem?_append_right (by simp; omega)]
      have : n ≠ 0 := by omega
      obtain ⟨k, rfl⟩ : ∃ k, n = k + 1 := ⟨n - 1, by omega⟩
      have : i = k := by omega
      subst this
      simp [List.range_succ_eq_map]
  · rw [List.getElem?_eq_none (by simp; omega), List.getElem?_eq_none (by simp; omega)]

theorem map_next_perm (n : Nat) : ((List.range n).map fun i => (i + 1) % n).Perm (List.range n) := by
  have h : (List.range n).map (fun i => (i + 1) % n) = (List.range n).tail ++ (List.range n).take 1 := by
    have := congrArg (List.map Prod.snd) (loopEdges_range n)
    rw [List.map_map] at this
    rw [show ((List.range n).map fun i => (i + 1) % n) =
      List.map (Prod.snd ∘ fun i => (i, (i + 1) % n)) (List.range n) from rfl, ← this]
    unfold loopEdges
    rw [List.map_snd_zip]
    cases n with
    | zero => simp
    | succ n => simp [List.range_succ_eq_map]
  rw [h]
  refine List.perm_append_comm.trans ?_
  rw [← List.drop_one, List.take_append_drop]

theorem sum_perm {a b : List Int} (h : a.Perm b) : a.sum = b.sum := by
  induction h with
  | nil => rfl
  | cons x _ ih => simp [ih]
  | swap x y l => simp only [List.sum_cons]; omega
  | trans _ _ h1 h2 => exact h1.trans h2

theorem sum_next (n : Nat) (g : Nat → Int) :
    ((List.range n).map fun i => g ((i + 1) % n)).sum = ((List.range n).map g).sum := by
  have := (map_next_perm n).map g
  rw [List.map_map] at this
  exact sum_perm this

/-- the two triangles of every side of a prism over a polygon with `n` corners: corner `i` is below
corner `n + i` -/
def prismSides (n : Nat) : List Tri :=
  (List.range n).flatMap fun i => [(i, n + i, n + (i + 1) % n), (i, n + (i + 1) % n, (i + 1) % n)]

theorem triEdges_flatMap (l : List Nat) (f : Nat → List Tri) :
    triEdges (l.flatMap f) = l.flatMap fun i => triEdges (f i) := by
  simp [triEdges, List.flatMap_assoc]

theorem esum_flatMap (f) (l : List Nat) (g : Nat → List (Nat × Nat)) :
    esum f (l.flatMap g) = (l.map fun i => esum f (g i)).sum := by
  induction l with
  | nil => rfl
  | cons a l ih => rw [List.flatMap_cons, esum_append, ih]; simp

theorem sum_map_add (l : List Nat) (g h : Nat → Int) :
    (l.map fun i => g i + h i).sum = (l.map g).sum + (l.map h).sum := by
  induction l with
  | nil => rfl
  | cons a l ih => simp only [List.map_cons, List.sum_cons, ih]; omega

theorem sum_map_neg (l : List Nat) (g : Nat → Int) : (l.map fun i => - g i).sum = - (l.map g).sum := by
  induction l with
  | nil => rfl
  | cons a l ih => simp only [List.map_cons, List.sum_cons, ih]; omega

theorem esum_prismSides (f) (hf : Antisym f) (n : Nat) :
    esum f (triEdges (prismSides n)) =
      esum f (loopEdges ((List.range n).map (n + ·))) - esum f (loopEdges (List.range n)) := by
  rw [prismSides, triEdges_flatMap, esum_flatMap, loopEdges_map, loopEdges_range]
  have h1 : ∀ i, esum f (triEdges [(i, n + i, n + (i + 1) % n), (i, n + (i + 1) % n, (i + 1) % n)]) =
      (f (n + i) (n + (i + 1) % n) + - f i ((i + 1) % n)) +
        (f i (n + i) + - (fun j => f j (n + j)) ((i + 1) % n)) := by
    intro i
    simp only [triEdges, Tri.edges, List.flatMap_cons, List.flatMap_nil, List.cons_append,
      List.nil_append, List.append_nil, esum_cons, esum_nil]
    have a1 := hf (n + (i + 1) % n) i
    have a2 := hf (n + (i + 1) % n) ((i + 1) % n)
    have a3 := hf ((i + 1) % n) i
    omega
  simp only [h1]
  rw [sum_map_add, sum_map_add, sum_map_add, sum_map_neg, sum_map_neg, sum_next n fun j => f j (n + j)]
  simp only [esum, List.map_map, Function.comp_def, Prod.map]
  omega

theorem prismSides_nodup {n : Nat} (h3 : 3 ≤ n) : (triEdges (prismSides n)).Nodup := by
  rw [prismSides, triEdges_flatMap]
  unfold List.Nodup
  rw [List.pairwise_flatMap]
  constructor
  · intro i hi
    have hi := List.mem_range.1 hi
    have hn := next_cases hi
    generalize (i + 1) % n = k at hn
    simp only [triEdges, Tri.edges, List.flatMap_cons, List.flatMap_nil, List.cons_append,
      List.nil_append, List.append_nil, List.pairwise_cons, List.mem_cons, List.not_mem_nil, or_false,
      forall_eq_or_imp, forall_eq, ne_eq, Prod.mk.injEq, List.Pairwise.nil, and_true,
      false_implies, implies_true]
    omega
  · refine List.pairwise_iff_getElem.2 ?_
    intro i j hi hj hij
    simp only [List.length_range] at hi hj
    simp only [List.getElem_range]
    have hn := next_cases hi
    have hm := next_cases hj
    generalize (i + 1) % n = k at hn
    generalize (j + 1) % n = m at hm
    simp only [triEdges, Tri.edges, List.flatMap_cons, List.flatMap_nil, List.cons_append,
      List.nil_append, List.append_nil, List.mem_cons, List.not_mem_nil, or_false,
      forall_eq_or_imp, forall_eq, ne_eq, Prod.mk.injEq]
    omega

/-- A lid whose rim is the polygon, walked backwards, on the sides of a prism: what is left open is
the bottom. -/
theorem prism_with_lid {n : Nat} (h3 : 3 ≤ n) {ts : List Tri} (hr : InRange n ts)
    (h : SurfaceWithRim ts (List.range n).reverse) :
    SurfaceWithRim (prismSides n ++ ts.map (Tri.map (n + ·))) (List.range n).reverse := by
  obtain ⟨hnd, hb⟩ := h
  rw [List.reverse_reverse] at hb
  constructor
  · rw [triEdges_append, triEdges_map, List.nodup_append]
    refine ⟨prismSides_nodup h3, ?_, ?_⟩
    · exact hnd.map (f := Prod.map (n + ·) (n + ·)) fun a b hab he => hab (by
        obtain ⟨a1, a2⟩ := a; obtain ⟨b1, b2⟩ := b
        simp only [Prod.map, Prod.mk.injEq] at he ⊢
        omega)
    · intro e he e' he' heq
      subst heq
      obtain ⟨⟨u, v⟩, hu, rfl⟩ := List.mem_map.1 he'
      obtain ⟨t, ht, hut⟩ := List.mem_flatMap.1 hu
      have htr := hr t ht
      have huv : u < n ∧ v < n := by
        simp only [Tri.edges, List.mem_cons, Prod.mk.injEq, List.not_mem_nil, or_false] at hut
        omega
      -- the edge is on top of a side
      have hside : v = (u + 1) % n := by
        rw [prismSides, triEdges_flatMap] at he
        obtain ⟨i, hi, he⟩ := List.mem_flatMap.1 he
        have hi := List.mem_range.1 hi
        have hn := next_cases hi
        have hm := next_cases huv.1
        generalize hk : (i + 1) % n = k at hn he
        generalize (u + 1) % n = m at hm
        simp only [triEdges, Tri.edges, List.flatMap_cons, List.flatMap_nil, List.cons_append,
          List.nil_append, List.append_nil, List.mem_cons, List.not_mem_nil, or_false, Prod.map,
          Prod.mk.injEq] at he
        omega
      have hn := next_cases huv.1
      rw [← hside] at hn
      have hcount := hb u v
      rw [List.count_append, List.count_append, loopEdges_range] at hcount
      have c1 : 0 < ((List.range n).map fun i => (i, (i + 1) % n)).count (u, v) := by
        rw [List.count_pos_iff, List.mem_map]
        exact ⟨u, List.mem_range.2 huv.1, by rw [hside]⟩
      have c2 : ((List.range n).map fun i => (i, (i + 1) % n)).count (v, u) = 0 := by
        rw [List.count_eq_zero, List.mem_map]
        rintro ⟨i, hi, he⟩
        cases he
        have hm := next_cases huv.2
        omega
      have c3 : (triEdges ts).count (v, u) ≤ 1 := List.nodup_iff_count.1 hnd (v, u)
      have c4 : 0 < (triEdges ts).count (u, v) := List.count_pos_iff.2 hu
      omega
  · rw [balanced_iff] at hb ⊢
    intro f hf
    have h1 := hb _ (hf.comp (n + ·))
    rw [esum_append, ← esum_map f (n + ·) (triEdges ts), ← esum_map f (n + ·) (loopEdges _),
      ← triEdges_map, ← loopEdges_map] at h1
    rw [List.reverse_reverse, triEdges_append, esum_append, esum_append, esum_prismSides f hf]
    omega

end Vpin
