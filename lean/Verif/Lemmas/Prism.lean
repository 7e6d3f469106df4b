import Verif.Model.BuiltinMesh
import Verif.Spec.Prism
import Verif.Spec.Wall
import Verif.Lemmas.Torus
/-
The vertices and faces of the builtin primitive.
-/
namespace Vpin
open Arith

/-- a list given by a function -/
def tab (N : Nat) (g : Nat → Vertex) : List Vertex := (List.range N).map g

def upd (g : Nat → Vertex) (j : Nat) (v : Vertex) (k : Nat) : Vertex := if k = j then v else g k

theorem tab_get {N : Nat} (g : Nat → Vertex) {k : Nat} (h : k < N) : (tab N g)[k]? = some (g k) := by
  simp [tab, List.getElem?_range h]

theorem tab_length (N : Nat) (g : Nat → Vertex) : (tab N g).length = N := by simp [tab]

theorem putAt_tab {N : Nat} (g : Nat → Vertex) {j : Nat} (v : Vertex) (h : j < N) :
    putAt (tab N g) j v = .ok (tab N (upd g j v)) := by
  unfold putAt
  rw [tab_length, if_pos h]
  congr 1
  apply List.ext_getElem?
  intro k
  rw [List.getElem?_set]
  by_cases hk : k < N
  · rw [tab_get _ hk, tab_get _ hk, tab_length]
    unfold upd
    by_cases e : j = k
    · subst e; simp [h]
    · simp [e, Ne.symm e]
  · rw [List.getElem?_eq_none (by rw [tab_length]; omega), List.getElem?_eq_none (by rw [tab_length]; omega),
      if_neg (by omega)]

theorem vertexAt_tab {N : Nat} (g : Nat → Vertex) {j : Nat} (h : j < N) :
    vertexAt (tab N g) j = .ok (g j) := by
  unfold vertexAt; rw [tab_get _ h]

section
variable [Arith]

/-- what the first pass has done for the first `i` sides -/
structure Placed (n i : Nat) (g : Nat → Vertex) : Prop where
  topMiddle : g 0 = ⟨0, 0, fHalf, 0, 0, f32One, fQuarter, fQuarter⟩
  bottomMiddle : g (n + 1) = ⟨0, 0, fHalf.neg, 0, 0, f32One.neg, f3Quarter, fQuarter⟩
  top : ∀ j < i, g (1 + j) = ⟨(prismCorner n j).1, (prismCorner n j).2, fHalf, 0, 0, f32One, 0, 0⟩
  bottom : ∀ j < i, g (n + 2 + j) =
    ⟨(prismCorner n j).1, (prismCorner n j).2, fHalf.neg, 0, 0, f32One.neg, 0, 0⟩
  sideTop : ∀ j < i, g (2 * n + 2 + j) =
    ⟨(prismCorner n j).1, (prismCorner n j).2, fHalf, sin (prismAngle n j), cos (prismAngle n j), 0, 0, 0⟩
  sideBottom : ∀ j < i, g (3 * n + 2 + j) =
    ⟨(prismCorner n j).1, (prismCorner n j).2, fHalf.neg, sin (prismAngle n j), cos (prismAngle n j), 0, 0, 0⟩

/-- the bounding box of the first `i` corners -/
def boxOf (n i : Nat) : Box :=
  let xs := (List.range i).map fun i => (prismCorner n i).1
  let ys := (List.range i).map fun i => (prismCorner n i).2
  ⟨leastOf xs, leastOf ys, greatestOf xs, greatestOf ys⟩

theorem place_loop (n : Nat) (g0 : Nat → Vertex) (h0 : Placed n 0 g0) (i : Nat) (hi : i ≤ n) :
    ∃ g, (List.range i).foldlM (builtinPlace n) (tab (4 * n + 2) g0, ⟨fInf, fInf, fNegInf, fNegInf⟩) =
      .ok (tab (4 * n + 2) g, boxOf n i) ∧ Placed n i g := by
  induction i with
  | zero => exact ⟨g0, rfl, h0⟩
  | succ i ih =>
    obtain ⟨g, hg, hp⟩ := ih (by omega)
    rw [List.range_succ, List.foldlM_append, hg]
    simp only [bind, Except.bind, List.foldlM_cons, List.foldlM_nil, pure, Except.pure, builtinPlace]
    rw [putAt_tab _ _ (by omega)]
    dsimp only
    rw [putAt_tab _ _ (by omega)]
    dsimp only
    rw [putAt_tab _ _ (by omega)]
    dsimp only
    rw [putAt_tab _ _ (by omega)]
    dsimp only
    refine ⟨_, by
      congr 2
      simp only [boxOf, List.range_succ, List.map_append, List.map_cons, List.map_nil, leastOf, greatestOf,
        List.foldl_append, List.foldl_cons, List.foldl_nil]
      rfl, ?_⟩
    constructor
    · simp only [upd]
      rw [if_neg (by omega), if_neg (by omega), if_neg (by omega), if_neg (by omega), hp.topMiddle]
    · simp only [upd]
      rw [if_neg (by omega), if_neg (by omega), if_neg (by omega), if_neg (by omega), hp.bottomMiddle]
    · intro j hj
      simp only [upd]
      rw [if_neg (by omega), if_neg (by omega), if_neg (by omega)]
      by_cases e : j = i
      · subst e; rw [if_pos (by omega)]; rfl
      · rw [if_neg (by omega), hp.top j (by omega)]
    · intro j hj
      simp only [upd]
      rw [if_neg (by omega), if_neg (by omega)]
      by_cases e : j = i
      · subst e; rw [if_pos (by omega)]; rfl
      · rw [if_neg (by omega), if_neg (by omega), hp.bottom j (by omega)]
    · intro j hj
      simp only [upd]
      rw [if_neg (by omega)]
      by_cases e : j = i
      · subst e; rw [if_pos (by omega)]; rfl
      · rw [if_neg (by omega), if_neg (by omega), if_neg (by omega), hp.sideTop j (by omega)]
    · intro j hj
      simp only [upd]
      by_cases e : j = i
      · subst e; rw [if_pos (by omega)]; rfl
      · rw [if_neg (by omega), if_neg (by omega), if_neg (by omega), if_neg (by omega),
          hp.sideBottom j (by omega)]

/-- what the second pass has done for the first `i` sides -/
structure Textured (n i : Nat) (g : Nat → Vertex) : Prop where
  topMiddle : g 0 = ⟨0, 0, fHalf, 0, 0, f32One, fQuarter, fQuarter⟩
  bottomMiddle : g (n + 1) = ⟨0, 0, fHalf.neg, 0, 0, f32One.neg, f3Quarter, fQuarter⟩
  top : ∀ j < n, g (1 + j) = ⟨(prismCorner n j).1, (prismCorner n j).2, fHalf, 0, 0, f32One,
    if j < i then (prismTexture n j).1 else 0, if j < i then (prismTexture n j).2 else 0⟩
  bottom : ∀ j < n, g (n + 2 + j) =
    ⟨(prismCorner n j).1, (prismCorner n j).2, fHalf.neg, 0, 0, f32One.neg,
      if j < i then (prismTexture n j).1 +ᶠ fHalf else 0, if j < i then (prismTexture n j).2 else 0⟩
  sideTop : ∀ j < n, g (2 * n + 2 + j) =
    ⟨(prismCorner n j).1, (prismCorner n j).2, fHalf, sin (prismAngle n j), cos (prismAngle n j), 0,
      if j < i then ofNat j *ᶠ (f32One /ᶠ ofNat n) else 0, if j < i then fHalf else 0⟩
  sideBottom : ∀ j < n, g (3 * n + 2 + j) =
    ⟨(prismCorner n j).1, (prismCorner n j).2, fHalf.neg, sin (prismAngle n j), cos (prismAngle n j), 0,
      if j < i then ofNat j *ᶠ (f32One /ᶠ ofNat n) else 0, if j < i then f32One else 0⟩

theorem texture_loop (n : Nat) (g0 : Nat → Vertex) (h0 : Placed n n g0) (i : Nat) (hi : i ≤ n) :
    ∃ g, (List.range i).foldlM (builtinTexture n (boxOf n n)) (tab (4 * n + 2) g0) =
      .ok (tab (4 * n + 2) g) ∧ Textured n i g := by
  induction i with
  | zero =>
    refine ⟨g0, rfl, h0.topMiddle, h0.bottomMiddle, ?_, ?_, ?_, ?_⟩
    all_goals
      intro j hj
      simp only [Nat.not_lt_zero, if_false]
    · exact h0.top j hj
    · exact h0.bottom j hj
    · exact h0.sideTop j hj
    · exact h0.sideBottom j hj
  | succ i ih =>
    obtain ⟨g, hg, hp⟩ := ih (by omega)
    have hin : i < n := by omega
    rw [List.range_succ, List.foldlM_append, hg]
    simp only [bind, Except.bind, List.foldlM_cons, List.foldlM_nil, pure, Except.pure, builtinTexture]
    have e1 : i + 1 = 1 + i := by omega
    have e2 : 1 + i + n + 1 = n + 2 + i := by omega
    rw [vertexAt_tab _ (by omega), e1, e2]
    dsimp only
    rw [putAt_tab _ _ (by omega)]
    dsimp only
    rw [vertexAt_tab _ (by omega)]
    dsimp only
    rw [putAt_tab _ _ (by omega)]
    dsimp only
    rw [vertexAt_tab _ (by omega)]
    dsimp only
    rw [putAt_tab _ _ (by omega)]
    dsimp only
    rw [vertexAt_tab _ (by omega)]
    dsimp only
    rw [putAt_tab _ _ (by omega)]
    dsimp only
    have t := hp.top i hin
    have b := hp.bottom i hin
    have st := hp.sideTop i hin
    have sb := hp.sideBottom i hin
    have lt_iff : ∀ j, j ≠ i → (j < 1 + i ↔ j < i) := by intro j hj; omega
    refine ⟨_, rfl, ?_⟩
    constructor
    · simp only [upd]
      rw [if_neg (by omega), if_neg (by omega), if_neg (by omega), if_neg (by omega), hp.topMiddle]
    · simp only [upd]
      rw [if_neg (by omega), if_neg (by omega), if_neg (by omega), if_neg (by omega), hp.bottomMiddle]
    · intro j hj
      simp only [upd]
      rw [if_neg (by omega), if_neg (by omega), if_neg (by omega)]
      by_cases e : j = i
      · subst e
        rw [if_pos rfl, if_pos (by omega), if_pos (by omega), t]
        rfl
      · rw [if_neg (by omega), hp.top j hj]
        simp only [lt_iff j e]
    · intro j hj
      simp only [upd]
      rw [if_neg (by omega), if_neg (by omega)]
      by_cases e : j = i
      · subst e
        rw [if_pos rfl, if_neg (by omega), if_pos (by omega), if_pos (by omega), b, t]
        rfl
      · rw [if_neg (by omega), if_neg (by omega), hp.bottom j hj]
        simp only [lt_iff j e]
    · intro j hj
      simp only [upd]
      rw [if_neg (by omega)]
      by_cases e : j = i
      · subst e
        rw [if_pos rfl, if_neg (by omega), if_neg (by omega), if_pos (by omega), if_pos (by omega), st]
      · rw [if_neg (by omega), if_neg (by omega), if_neg (by omega), hp.sideTop j hj]
        simp only [lt_iff j e]
    · intro j hj
      simp only [upd]
      by_cases e : j = i
      · subst e
        rw [if_pos rfl, if_neg (by omega), if_neg (by omega), if_neg (by omega), if_pos (by omega),
          if_pos (by omega), sb]
      · rw [if_neg (by omega), if_neg (by omega), if_neg (by omega), if_neg (by omega), hp.sideBottom j hj]
        simp only [lt_iff j e]

theorem builtin_eq (sides : UInt32) (inside : Bool) (h : ¬ sides < 3) :
    ∃ vs, buildBuiltinPrimitiveMesh sides inside =
      .ok (some (vs, (List.range sides.toNat).flatMap (builtinFaces sides.toNat inside))) ∧
      PrismVertices sides.toNat vs := by
  generalize hn : sides.toNat = n
  have hn3 : 3 ≤ n := by
    rw [UInt32.lt_iff_toNat_lt] at h
    have : (3 : UInt32).toNat = 3 := rfl
    omega
  have hrep : List.replicate (4 * n + 2) (⟨0, 0, 0, 0, 0, 0, 0, 0⟩ : Vertex) =
      tab (4 * n + 2) fun _ => ⟨0, 0, 0, 0, 0, 0, 0, 0⟩ := by
    apply List.ext_getElem?
    intro k
    by_cases hk : k < 4 * n + 2
    · rw [tab_get _ hk]; simp [hk]
    · rw [List.getElem?_eq_none (by simp; omega), List.getElem?_eq_none (by rw [tab_length]; omega)]
  unfold buildBuiltinPrimitiveMesh
  rw [if_neg h]
  simp only [bind, Except.bind, pure, Except.pure, hn]
  rw [hrep, putAt_tab _ _ (by omega)]
  dsimp only
  rw [putAt_tab _ _ (by omega)]
  dsimp only
  have h0 : Placed n 0 (upd (upd (fun _ => ⟨0, 0, 0, 0, 0, 0, 0, 0⟩) 0
      ⟨0, 0, fHalf, 0, 0, f32One, fQuarter, fQuarter⟩) (n + 1)
      ⟨0, 0, fHalf.neg, 0, 0, f32One.neg, f3Quarter, fQuarter⟩) := by
    constructor
    · simp only [upd]; rw [if_neg (by omega)]; rfl
    · simp only [upd]; rfl
    all_goals intro j hj; omega
  obtain ⟨g, hg, hp⟩ := place_loop n _ h0 n (Nat.le_refl _)
  rw [hg]
  dsimp only
  obtain ⟨g', hg', ht⟩ := texture_loop n g hp n (Nat.le_refl _)
  rw [hg']
  refine ⟨_, rfl, ?_⟩
  constructor
  · exact tab_length _ _
  · rw [show (prism n).topMiddle = 0 from rfl, tab_get _ (by omega), ht.topMiddle]
  · rw [show (prism n).bottomMiddle = n + 1 from rfl, tab_get _ (by omega), ht.bottomMiddle]
  · intro i hi
    rw [show (prism n).top i = 1 + i from rfl, tab_get _ (by omega), ht.top i hi]
    simp [hi]
  · intro i hi
    rw [show (prism n).bottom i = n + 2 + i from rfl, tab_get _ (by omega), ht.bottom i hi]
    simp [hi]
  · intro i hi
    rw [show (prism n).sideTop i = 2 * n + 2 + i from rfl, tab_get _ (by omega), ht.sideTop i hi]
    simp [hi]
  · intro i hi
    rw [show (prism n).sideBottom i = 3 * n + 2 + i from rfl, tab_get _ (by omega), ht.sideBottom i hi]
    simp [hi]

end

/-! ### Faces -/

theorem builtinFaces_eq {n i : Nat} (h : i < n) (inside : Bool) :
    builtinFaces n inside i = prismSide n i ++ if inside then (prismSide n i).map Tri.flip else [] := by
  have hk : nextSide n i = if i = n - 1 then 0 else i + 1 := by
    unfold nextSide
    split
    · have : i + 1 = n := by omega
      rw [this, Nat.mod_self]
    · exact Nat.mod_eq_of_lt (by omega)
  unfold builtinFaces prismSide
  dsimp only [prism]
  rw [hk]
  by_cases e : i = n - 1
  · simp only [e, if_true, Nat.add_zero]
    cases inside <;> simp [Tri.flip] <;> omega
  · simp only [e, if_false]
    cases inside <;> simp [Tri.flip] <;> omega

/-- the faces after welding -/
theorem weld_side {n i : Nat} (hi : i < n) :
    (prismSide n i).map (Tri.map (prismWeld n)) =
      [(0, 1 + nextSide n i, 1 + i), (n + 1, n + 2 + i, n + 2 + nextSide n i),
        (1 + nextSide n i, n + 2 + i, 1 + i), (1 + nextSide n i, n + 2 + nextSide n i, n + 2 + i)] := by
  have hk : nextSide n i < n := Nat.mod_lt _ (by omega)
  have w0 : prismWeld n 0 = 0 := by unfold prismWeld; rw [if_neg (by omega), if_neg (by omega)]
  have w1 : ∀ j < n, prismWeld n (1 + j) = 1 + j := by
    intro j hj; unfold prismWeld; rw [if_neg (by omega), if_neg (by omega)]
  have w2 : prismWeld n (n + 1) = n + 1 := by unfold prismWeld; rw [if_neg (by omega), if_neg (by omega)]
  have w3 : ∀ j < n, prismWeld n (n + 2 + j) = n + 2 + j := by
    intro j hj; unfold prismWeld; rw [if_neg (by omega), if_neg (by omega)]
  have w4 : ∀ j < n, prismWeld n (2 * n + 2 + j) = 1 + j := by
    intro j hj; unfold prismWeld; rw [if_pos (by omega)]; omega
  have w5 : ∀ j < n, prismWeld n (3 * n + 2 + j) = n + 2 + j := by
    intro j hj; unfold prismWeld; rw [if_neg (by omega), if_pos (by omega)]; omega
  simp only [prismSide, prism, List.map_cons, List.map_nil, Tri.map, w0, w2, w1 i hi, w1 _ hk, w3 i hi, w3 _ hk,
    w4 i hi, w4 _ hk, w5 i hi, w5 _ hk]

theorem flatMap_congr_range {n : Nat} {f g : Nat → List α} (h : ∀ i < n, f i = g i) :
    (List.range n).flatMap f = (List.range n).flatMap g := by
  rw [List.flatMap_def, List.flatMap_def]
  congr 1
  apply List.map_congr_left
  intro i hi
  exact h i (List.mem_range.1 hi)

theorem prism_welded (n : Nat) : ((List.range n).flatMap (prismSide n)).map (Tri.map (prismWeld n)) =
    (List.range n).flatMap fun i =>
      [(0, 1 + nextSide n i, 1 + i), (n + 1, n + 2 + i, n + 2 + nextSide n i),
        (1 + nextSide n i, n + 2 + i, 1 + i), (1 + nextSide n i, n + 2 + nextSide n i, n + 2 + i)] := by
  rw [List.map_flatMap]
  exact flatMap_congr_range fun i hi => weld_side hi

theorem prism_closed {n : Nat} (h3 : 3 ≤ n) :
    ClosedSurface (((List.range n).flatMap (prismSide n)).map (Tri.map (prismWeld n))) := by
  rw [prism_welded]
  constructor
  · rw [triEdges_flatMap]
    unfold List.Nodup
    rw [List.pairwise_flatMap]
    constructor
    · intro i hi
      have a := next_cases (List.mem_range.1 hi)
      have hi := List.mem_range.1 hi
      simp [triEdges, Tri.edges, nextSide]
      omega
    · refine List.pairwise_lt_range.imp_of_mem ?_
      intro j k hj hk hlt e1 h1 e2 h2
      have hj := List.mem_range.1 hj
      have hk := List.mem_range.1 hk
      have b := next_cases hj
      have c := next_cases hk
      simp only [triEdges, Tri.edges, nextSide, List.flatMap_cons, List.flatMap_nil, List.cons_append,
        List.nil_append, List.append_nil, List.mem_cons, List.not_mem_nil, or_false] at h1 h2
      rcases h1 with rfl | rfl | rfl | rfl | rfl | rfl | rfl | rfl | rfl | rfl | rfl | rfl <;>
        rcases h2 with rfl | rfl | rfl | rfl | rfl | rfl | rfl | rfl | rfl | rfl | rfl | rfl <;>
        simp only [ne_eq, Prod.mk.injEq] <;> omega
  · rw [balanced_iff]
    intro f hf
    rw [triEdges_flatMap, esum_flatMap]
    have cell : ∀ i, esum f (triEdges
        [(0, 1 + nextSide n i, 1 + i), (n + 1, n + 2 + i, n + 2 + nextSide n i),
        (1 + nextSide n i, n + 2 + i, 1 + i), (1 + nextSide n i, n + 2 + nextSide n i, n + 2 + i)]) =
        ((fun i => f 0 (1 + i) - f (n + 1) (n + 2 + i) + f (1 + i) (n + 2 + i)) ((i + 1) % n) +
          - (fun i => f 0 (1 + i) - f (n + 1) (n + 2 + i) + f (1 + i) (n + 2 + i)) i) := by
      intro i
      simp only [triEdges, Tri.edges, nextSide, List.flatMap_cons, List.flatMap_nil, List.cons_append,
        List.nil_append, List.append_nil, esum_cons, esum_nil]
      have h1 := hf (1 + i) 0
      have h2 := hf (1 + (i + 1) % n) (1 + i)
      have h3 := hf (n + 2 + (i + 1) % n) (n + 1)
      have h4 := hf (n + 2 + i) (n + 2 + (i + 1) % n)
      have h5 := hf (n + 2 + i) (1 + i)
      have h6 := hf (1 + (i + 1) % n) (n + 2 + i)
      omega
    rw [sum_map_congr fun i _ => cell i, sum_map_add, sum_map_neg,
      sum_next n fun i => f 0 (1 + i) - f (n + 1) (n + 2 + i) + f (1 + i) (n + 2 + i)]
    omega

end Vpin
