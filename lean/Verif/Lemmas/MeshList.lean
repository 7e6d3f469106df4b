import Verif.Lemmas.Polygon
/-
Lemmas about lists used by the mesh generators.
-/
namespace Vpin

theorem mapM_all_ok {f : α → Res β} {g : α → β} {l : List α} (h : ∀ x ∈ l, f x = .ok (g x)) :
    l.mapM f = .ok (l.map g) := by
  induction l with
  | nil => rfl
  | cons a l ih =>
    rw [List.mapM_cons, h a (by simp), ih fun x hx => h x (by simp [hx])]
    rfl

theorem foldlM_all_ok {f : σ → α → Res σ} {g : σ → α → σ} {l : List α}
    (h : ∀ s, ∀ x ∈ l, f s x = .ok (g s x)) (s : σ) : l.foldlM f s = .ok (l.foldl g s) := by
  induction l generalizing s with
  | nil => rfl
  | cons a l ih =>
    rw [List.foldlM_cons, h s a (by simp)]
    exact ih (fun s x hx => h s x (by simp [hx])) _

theorem flatten_get {c : Nat} {qs : List (List α)} (h : ∀ q ∈ qs, q.length = c) (i k : Nat) (hk : k < c) :
    qs.flatten[c * i + k]? = qs[i]?.bind (·[k]?) := by
  induction qs generalizing i with
  | nil => simp
  | cons q qs ih =>
    have hq : q.length = c := h q (by simp)
    cases i with
    | zero =>
      rw [List.flatten_cons, List.getElem?_append_left (by omega)]
      simp
    | succ i =>
      rw [List.flatten_cons, List.getElem?_append_right (by rw [hq, Nat.mul_add]; omega), hq]
      rw [show c * (i + 1) + k - c = c * i + k by rw [Nat.mul_add]; omega]
      rw [ih fun q hq => h q (by simp [hq])]
      simp

theorem getOrPanic_some {l : List α} {i : Nat} {a : α} (h : l[i]? = some a) :
    getOrPanic l i = .ok a := by
  rw [getOrPanic, h]

theorem flatten_length {c : Nat} {qs : List (List α)} (h : ∀ q ∈ qs, q.length = c) :
    qs.flatten.length = c * qs.length := by
  induction qs with
  | nil => rfl
  | cons a l ih =>
    rw [List.flatten_cons, List.length_append, ih fun q hq => h q (by simp [hq]), h a (by simp),
      List.length_cons, Nat.mul_add]
    omega

/-- every number gives a list of the same length -/
theorem flatMap_range_get {c : Nat} {f : Nat → List α} {n : Nat} (h : ∀ i < n, (f i).length = c)
    {i k : Nat} (hi : i < n) (hk : k < c) : ((List.range n).flatMap f)[c * i + k]? = (f i)[k]? := by
  rw [List.flatMap_def, flatten_get (c := c) _ i k hk, List.getElem?_map, List.getElem?_range hi]
  · rfl
  · intro q hq
    obtain ⟨j, hj, rfl⟩ := List.mem_map.1 hq
    exact h j (List.mem_range.1 hj)

theorem flatMap_range_length {c : Nat} {f : Nat → List α} {n : Nat} (h : ∀ i < n, (f i).length = c) :
    ((List.range n).flatMap f).length = c * n := by
  rw [List.flatMap_def, flatten_length (c := c), List.length_map, List.length_range]
  intro q hq
  obtain ⟨j, hj, rfl⟩ := List.mem_map.1 hq
  exact h j (List.mem_range.1 hj)

end Vpin
