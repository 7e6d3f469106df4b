import Verif.Spec.Surface
/-
Lemmas about edges of triangles and closed polygons.
-/
namespace Vpin

/-- sum of an edge function -/
def esum (f : Nat → Nat → Int) (es : List (Nat × Nat)) : Int := (es.map fun e => f e.1 e.2).sum

theorem esum_nil (f) : esum f [] = 0 := rfl
theorem esum_cons (f) (e : Nat × Nat) (es) : esum f (e :: es) = f e.1 e.2 + esum f es := by
  simp [esum]
theorem esum_append (f) (a b) : esum f (a ++ b) = esum f a + esum f b := by
  simp [esum, List.sum_append]
theorem esum_perm {a b : List (Nat × Nat)} (f) (h : a.Perm b) : esum f a = esum f b := by
  induction h with
  | nil => rfl
  | cons x _ ih => simp [esum_cons, ih]
  | swap x y l => simp only [esum_cons]; omega
  | trans _ _ h1 h2 => exact h1.trans h2

/-- an edge function that changes its sign with the direction -/
def Antisym (f : Nat → Nat → Int) : Prop := ∀ u v, f u v = - f v u

theorem esum_swap (f) (hf : Antisym f) (es : List (Nat × Nat)) :
    esum f (es.map Prod.swap) = - esum f es := by
  induction es with
  | nil => rfl
  | cons e es ih => simp only [List.map_cons, esum_cons, ih, Prod.swap]; rw [hf]; omega

theorem esum_reverse (f) (es : List (Nat × Nat)) : esum f es.reverse = esum f es :=
  esum_perm f (List.reverse_perm es)

/-- the difference between the number of occurrences of an edge and of its reverse, as the sum of
an antisymmetric function -/
def flux (u v : Nat) (x y : Nat) : Int :=
  (if (x, y) = (u, v) then 1 else 0) - (if (y, x) = (u, v) then 1 else 0)

theorem flux_antisym (u v : Nat) : Antisym (flux u v) := by
  intro x y; simp only [flux]; omega

theorem esum_flux (u v : Nat) (es : List (Nat × Nat)) :
    esum (flux u v) es = (es.count (u, v) : Int) - es.count (v, u) := by
  induction es with
  | nil => rfl
  | cons e es ih =>
    obtain ⟨x, y⟩ := e
    have h2 : ((y, x) = (u, v)) ↔ ((x, y) = (v, u)) := by
      constructor <;> intro h <;> cases h <;> rfl
    rw [esum_cons, ih, List.count_cons, List.count_cons]
    simp only [flux, h2, beq_iff_eq]
    by_cases h1 : (x, y) = (u, v)
    · by_cases h3 : (x, y) = (v, u)
      · rw [if_pos h1, if_pos h3, if_pos h1, if_pos h3]; omega
      · rw [if_pos h1, if_neg h3, if_pos h1, if_neg h3]; omega
    · by_cases h3 : (x, y) = (v, u)
      · rw [if_neg h1, if_pos h3, if_neg h1, if_pos h3]; omega
      · rw [if_neg h1, if_neg h3, if_neg h1, if_neg h3]; omega

theorem balanced_iff (es : List (Nat × Nat)) :
    Balanced es ↔ ∀ f, Antisym f → esum f es = 0 := by
  constructor
  · intro h f hf
    -- pair every edge with its reverse
    have key : ∀ (n : Nat) (es : List (Nat × Nat)), es.length ≤ n → Balanced es →
        esum f es = 0 := by
      intro n
      induction n with
      | zero => intro es hl _; cases es with
        | nil => rfl
        | cons _ _ => simp at hl
      | succ n ih =>
        intro es hl hb
        cases es with
        | nil => rfl
        | cons e es =>
          obtain ⟨x, y⟩ := e
          by_cases hxy : x = y
          · subst hxy
            have h0 : f x x = 0 := by have := hf x x; omega
            rw [esum_cons]; dsimp only
            rw [h0, ih es (by simp at hl; omega)]; rfl
            intro u v
            have := hb u v
            simp only [List.count_cons] at this
            by_cases h1 : ((x, x) : Nat × Nat) = (u, v)
            · cases h1; rfl
            · have h2 : ¬ ((x, x) : Nat × Nat) = (v, u) := by
                intro h; cases h; exact h1 rfl
              simpa [h1, h2] using this
          · have hm : (y, x) ∈ es := by
              have := hb x y
              simp only [List.count_cons] at this
              have hne : ¬ ((x, y) : Nat × Nat) = (y, x) := by
                intro h; cases h; exact hxy rfl
              have : 0 < es.count (y, x) := by
                simp [hne] at this; omega
              exact List.count_pos_iff.1 this
            have hp := List.perm_cons_erase hm
            have hp' : ((x, y) :: es).Perm ((x, y) :: (y, x) :: es.erase (y, x)) := hp.cons _
            rw [esum_perm f hp', esum_cons, esum_cons]; dsimp only
            have := hf x y
            rw [ih (es.erase (y, x))]
            · omega
            · have := hp'.length_eq; simp at this hl; omega
            · intro u v
              have h1 := hb u v
              rw [hp'.count_eq, hp'.count_eq] at h1
              have e1 : ∀ p q : Nat, List.count (p, q) ((x, y) :: (y, x) :: es.erase (y, x)) =
                  List.count (p, q) (es.erase (y, x)) +
                    ((if (p = x ∧ q = y) ∨ (p = y ∧ q = x) then 1 else 0)) := by
                intro p q
                rw [List.count_cons, List.count_cons]
                simp only [beq_iff_eq, Prod.mk.injEq]
                by_cases c1 : p = x ∧ q = y
                · have c2 : ¬ (y = p ∧ x = q) := by omega
                  rw [if_neg c2, if_pos (by omega), if_pos (by omega)]
                · by_cases c2 : y = p ∧ x = q
                  · rw [if_pos c2, if_neg (by omega), if_pos (by omega)]
                  · rw [if_neg c2, if_neg (by omega), if_neg (by omega)]
              rw [e1, e1] at h1
              by_cases c : (u = x ∧ v = y) ∨ (u = y ∧ v = x)
              · rw [if_pos c, if_pos (by omega)] at h1; omega
              · rw [if_neg c, if_neg (by omega)] at h1; omega
    exact key es.length es (Nat.le_refl _) h
  · intro h u v
    have := h (flux u v) (flux_antisym u v)
    rw [esum_flux] at this
    omega

/-- edges of an open path -/
def pathEdges : List Nat → List (Nat × Nat)
  | a :: b :: l => (a, b) :: pathEdges (b :: l)
  | _ => []

theorem pathEdges_append (l : List Nat) (x : Nat) (r : List Nat) :
    pathEdges (l ++ x :: r) = pathEdges (l ++ [x]) ++ pathEdges (x :: r) := by
  induction l with
  | nil => simp [pathEdges]
  | cons a l ih =>
    cases l with
    | nil => simp [pathEdges]
    | cons b l => simpa [pathEdges] using ih

theorem pathEdges_eq_zip (l : List Nat) : pathEdges l = l.zip l.tail := by
  induction l with
  | nil => rfl
  | cons a l ih => cases l with
    | nil => rfl
    | cons b l => simpa [pathEdges] using ih

theorem loopEdges_cons (x : Nat) (xs : List Nat) :
    loopEdges (x :: xs) = pathEdges (x :: xs ++ [x]) := by
  rw [pathEdges_eq_zip, loopEdges]
  simp only [List.tail_cons, List.take_succ_cons, List.take_zero, List.cons_append]
  -- the last element of the left list has no partner
  have : ∀ (l : List Nat) (y : Nat) (r : List Nat), l.length = r.length →
      (l ++ [y]).zip r = l.zip r := by
    intro l y r h
    induction l generalizing r with
    | nil => cases r with
      | nil => rfl
      | cons _ _ => simp at h
    | cons a l ih => cases r with
      | nil => simp at h
      | cons b r => simp only [List.cons_append, List.zip_cons_cons]; rw [ih r (by simpa using h)]
  exact (this (x :: xs) x (xs ++ [x]) (by simp)).symm

theorem loopEdges_rot (a b : List Nat) : (loopEdges (b ++ a)).Perm (loopEdges (a ++ b)) := by
  cases a with
  | nil => simp
  | cons x a =>
    cases b with
    | nil => simp
    | cons y b =>
      rw [List.cons_append, List.cons_append, loopEdges_cons, loopEdges_cons]
      have h1 : y :: (b ++ x :: a) ++ [y] = (y :: b) ++ x :: (a ++ [y]) := by simp
      have h2 : x :: (a ++ y :: b) ++ [x] = (x :: a) ++ y :: (b ++ [x]) := by simp
      rw [h1, h2, pathEdges_append, pathEdges_append (x :: a)]
      exact List.perm_append_comm

theorem pathEdges_reverse (l : List Nat) :
    pathEdges l.reverse = (pathEdges l).reverse.map Prod.swap := by
  induction l with
  | nil => rfl
  | cons a l ih => cases l with
    | nil => rfl
    | cons b l =>
      rw [List.reverse_cons, List.reverse_cons, List.append_assoc]
      show pathEdges (l.reverse ++ b :: [a]) = _
      rw [pathEdges_append, ← List.reverse_cons, ih]
      simp [pathEdges]

theorem loopEdges_reverse (l : List Nat) :
    (loopEdges l.reverse).Perm ((loopEdges l).map Prod.swap) := by
  cases l with
  | nil => rfl
  | cons x xs =>
    rw [List.reverse_cons]
    refine (loopEdges_rot [x] xs.reverse).trans ?_
    rw [List.singleton_append, loopEdges_cons, loopEdges_cons]
    have h : x :: xs.reverse ++ [x] = (x :: xs ++ [x]).reverse := by simp
    rw [h, pathEdges_reverse, List.map_reverse]
    exact List.reverse_perm _

theorem esum_loop_reverse (f) (hf : Antisym f) (l : List Nat) :
    esum f (loopEdges l.reverse) = - esum f (loopEdges l) := by
  rw [esum_perm f (loopEdges_reverse l), esum_swap f hf]

theorem mem_pathEdges_fst {l : List Nat} {z : Nat} {e : Nat × Nat}
    (h : e ∈ pathEdges (l ++ [z])) : e.1 ∈ l := by
  induction l with
  | nil => simp [pathEdges] at h
  | cons a l ih => cases l with
    | nil => simp [pathEdges] at h; simp [h]
    | cons b l =>
      simp only [List.cons_append, pathEdges, List.mem_cons] at h
      rcases h with h | h
      · simp [h]
      · have := ih (by simpa using h)
        exact List.mem_cons_of_mem _ this

theorem mem_pathEdges_snd {x : Nat} {l : List Nat} {e : Nat × Nat}
    (h : e ∈ pathEdges (x :: l)) : e.2 ∈ l := by
  induction l generalizing x with
  | nil => simp [pathEdges] at h
  | cons b l ih =>
    simp only [pathEdges, List.mem_cons] at h
    rcases h with h | h
    · simp [h]
    · exact List.mem_cons_of_mem _ (ih h)

theorem triEdges_cons (t : Tri) (ts : List Tri) :
    triEdges (t :: ts) = Tri.edges t ++ triEdges ts := by
  simp [triEdges]

theorem triEdges_append (a b : List Tri) : triEdges (a ++ b) = triEdges a ++ triEdges b := by
  simp [triEdges]

/-- twice the area of a triangle is the sum over its edges -/
theorem triArea2_edges (p : Nat → Int × Int) (t : Tri) :
    triArea2 p t = esum (fun u v => (p u).1 * (p v).2 - (p v).1 * (p u).2) (Tri.edges t) := by
  simp only [triArea2, Tri.edges, esum_cons, esum_nil, Int.sub_mul, Int.mul_sub]
  have h1 := Int.mul_comm (p t.2.2).1 (p t.1).2
  have h2 := Int.mul_comm (p t.1).1 (p t.2.2).2
  omega

theorem esum_triEdges_area (p : Nat → Int × Int) (ts : List Tri) :
    (ts.map (triArea2 p)).sum =
      esum (fun u v => (p u).1 * (p v).2 - (p v).1 * (p u).2) (triEdges ts) := by
  induction ts with
  | nil => rfl
  | cons t ts ih => rw [triEdges_cons, esum_append, List.map_cons, List.sum_cons, ih, triArea2_edges]

theorem area_antisym (p : Nat → Int × Int) :
    Antisym (fun u v => (p u).1 * (p v).2 - (p v).1 * (p u).2) := by
  intro u v; dsimp only; omega

end Vpin
