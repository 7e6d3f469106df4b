import Verif.Model.ItemMesh
/-
The vertices of the table of a flipper and the circles they are put on.
-/
namespace Vpin

/-! ### The places of the vertices -/

section
variable [Arith]
open Arith

/-- the vertex is one of the points of the round ends: at step `e` it is compared with the same point of the base and
of the tip, below and above -/
def matchesEnd (v : Vertex) (e : Vec2 × Vec2) : Bool :=
  vertexMatches v e.1.x e.1.y fBatBottom || vertexMatches v e.2.x e.2.y fBatBottom ||
    vertexMatches v e.1.x e.1.y fBatTop || vertexMatches v e.2.x e.2.y fBatTop

theorem applyFix_on (A : ItemFns) (c : Vec2) (mid r : F32) (nc : Vec2) (k : F32) (v : Vertex) :
    (applyFix A c mid r nc k v).z = v.z ∧ ((applyFix A c mid r nc k v).x, (applyFix A c mid r nc k v).y) =
      circlePoint (fixedAngle mid k (sgn mid) (sameSign mid (A.atan2 (v.y -ᶠ c.y) (v.x -ᶠ c.x)))) r nc.x nc.y :=
  ⟨rfl, rfl⟩

/-- the vertex is on the circle of the base or on that of the tip, at the height `z` -/
def OnEnd (s : BatShape) (z : F32) (w : Vertex) : Prop :=
  w.z = z ∧ ∃ angle, (w.x, w.y) = circlePoint angle s.baseRadius 0 0 ∨ (w.x, w.y) = circlePoint angle s.endRadius 0 s.length

theorem fixVertex_keeps {A : ItemFns} {s : BatShape} {z : F32} (b t : Vec2) {w : Vertex} (h : OnEnd s z w) :
    OnEnd s z (fixVertex A s b t w) := by
  have base : ∀ u, OnEnd s z u → OnEnd s z (applyFix A ⟨0, 0⟩ (F32.neg fPi *ᶠ fHalf) s.baseRadius ⟨0, 0⟩ s.scale u) :=
    fun u hu => ⟨(applyFix_on ..).1.trans hu.1, _, Or.inl (applyFix_on ..).2⟩
  have tip : ∀ u, OnEnd s z u →
      OnEnd s z (applyFix A ⟨0, 0x3f494c34⟩ (fPi *ᶠ fHalf) s.endRadius ⟨0, s.length⟩ s.scale u) :=
    fun u hu => ⟨(applyFix_on ..).1.trans hu.1, _, Or.inr (applyFix_on ..).2⟩
  have pick : ∀ (c : Bool) (f : Vertex → Vertex) (u : Vertex), (∀ x, OnEnd s z x → OnEnd s z (f x)) → OnEnd s z u →
      OnEnd s z (if c then f u else u) := by
    intro c f u hf hu
    cases c
    · exact hu
    · exact hf u hu
  unfold fixVertex
  exact pick _ _ _ tip (pick _ _ _ base (pick _ _ _ tip (pick _ _ _ base h)))

theorem fixVertex_moves {A : ItemFns} {s : BatShape} {b t : Vec2} {v : Vertex} (h : matchesEnd v (b, t) = true) :
    OnEnd s v.z (fixVertex A s b t v) := by
  have base : ∀ u, u.z = v.z → OnEnd s v.z (applyFix A ⟨0, 0⟩ (F32.neg fPi *ᶠ fHalf) s.baseRadius ⟨0, 0⟩ s.scale u) :=
    fun u hu => ⟨(applyFix_on ..).1.trans hu, _, Or.inl (applyFix_on ..).2⟩
  have tip : ∀ u, u.z = v.z →
      OnEnd s v.z (applyFix A ⟨0, 0x3f494c34⟩ (fPi *ᶠ fHalf) s.endRadius ⟨0, s.length⟩ s.scale u) :=
    fun u hu => ⟨(applyFix_on ..).1.trans hu, _, Or.inr (applyFix_on ..).2⟩
  have keepB : ∀ (c : Bool) u, OnEnd s v.z u →
      OnEnd s v.z (if c then applyFix A ⟨0, 0⟩ (F32.neg fPi *ᶠ fHalf) s.baseRadius ⟨0, 0⟩ s.scale u else u) := by
    intro c u hu; cases c
    · exact hu
    · exact base u hu.1
  have keepT : ∀ (c : Bool) u, OnEnd s v.z u →
      OnEnd s v.z (if c then applyFix A ⟨0, 0x3f494c34⟩ (fPi *ᶠ fHalf) s.endRadius ⟨0, s.length⟩ s.scale u else u) := by
    intro c u hu; cases c
    · exact hu
    · exact tip u hu.1
  unfold fixVertex
  dsimp only
  unfold matchesEnd at h
  by_cases h1 : vertexMatches v b.x b.y fBatBottom = true
  · rw [if_pos h1]
    exact keepT _ _ (keepB _ _ (keepT _ _ (base v rfl)))
  · rw [if_neg h1]
    by_cases h2 : vertexMatches v t.x t.y fBatBottom = true
    · rw [if_pos h2]
      exact keepT _ _ (keepB _ _ (tip v rfl))
    · rw [if_neg h2]
      by_cases h3 : vertexMatches v b.x b.y fBatTop = true
      · rw [if_pos h3]
        exact keepT _ _ (base v rfl)
      · rw [if_neg h3]
        have h4 : vertexMatches v t.x t.y fBatTop = true := by
          simp only [h1, h2, h3, Bool.or_eq_true] at h
          simpa using h
        rw [if_pos h4]
        exact tip v rfl

theorem fixVertex_none {A : ItemFns} {s : BatShape} {b t : Vec2} {v : Vertex} (h : matchesEnd v (b, t) = false) :
    fixVertex A s b t v = v := by
  simp only [matchesEnd, Bool.or_eq_false_iff] at h
  simp [fixVertex, h.1.1.1, h.1.1.2, h.1.2, h.2]

theorem fold_on {A : ItemFns} {s : BatShape} {v : Vertex} (l : List (Vec2 × Vec2)) (w : Vertex)
    (h : OnEnd s v.z w ∨ w = v ∧ l.any (matchesEnd v) = true) :
    OnEnd s v.z (l.foldl (fun v e => fixVertex A s e.1 e.2 v) w) := by
  induction l generalizing w with
  | nil =>
    rcases h with h | ⟨_, h⟩
    · exact h
    · cases h
  | cons e l ih =>
    refine ih _ ?_
    rcases h with h | ⟨rfl, h⟩
    · exact Or.inl (fixVertex_keeps _ _ h)
    · cases hm : matchesEnd w e with
      | true => exact Or.inl (fixVertex_moves hm)
      | false =>
        rw [List.any_cons, hm, Bool.false_or] at h
        exact Or.inr ⟨fixVertex_none hm, h⟩

theorem fixedVertex_on (A : ItemFns) (s : BatShape) {v : Vertex} (h : (vertsBase.zip vertsTip).any (matchesEnd v) = true) :
    OnEnd s v.z (fixedVertex A s v) :=
  fold_on _ v (Or.inr ⟨rfl, h⟩)

theorem fold_keeps {A : ItemFns} {s : BatShape} (l : List (Vec2 × Vec2)) (v : Vertex)
    (h : ∀ e ∈ l, matchesEnd v e = false) : l.foldl (fun v e => fixVertex A s e.1 e.2 v) v = v := by
  induction l with
  | nil => rfl
  | cons e l ih =>
    rw [List.foldl_cons, fixVertex_none (h e List.mem_cons_self)]
    exact ih fun x hx => h x (List.mem_cons_of_mem _ hx)

end

/-! ### The table, in IEEE arithmetic -/

/-- the points of the ends, with the heights of the bottom and of the top -/
def endPoints : List (F32 × F32 × F32) :=
  (vertsBase ++ vertsTip).flatMap fun p => [(p.x, p.y, fBatBottom), (p.x, p.y, fBatTop)]

/-- a vertex of the table is, bit by bit, one of the points of the ends -/
theorem table_points : flipperBaseTable.vertices.all (fun v => endPoints.contains (v.x, v.y, v.z)) = true := by
  decide +kernel

/-- the comparison of two coordinates -/
def closeTo (x y : F32) : Bool := ieeeLt (F32.abs (ieeeAdd x y.neg)) f1em4

theorem points_close : (vertsBase ++ vertsTip).all (fun p => closeTo p.x p.x && closeTo p.y p.y) = true ∧
    closeTo fBatBottom fBatBottom = true ∧ closeTo fBatTop fBatTop = true ∧ closeTo fBatBottom fBatTop = false ∧
    closeTo fBatTop fBatBottom = false := by
  decide +kernel

theorem points_apart : ((vertsBase ++ vertsTip).zipIdx.all fun (p, i) => (vertsBase ++ vertsTip).zipIdx.all fun (q, j) =>
    i == j || !(closeTo p.x q.x && closeTo p.y q.y)) = true := by
  decide +kernel

theorem endPoints_cases {v : Vertex} (h : v ∈ flipperBaseTable.vertices) :
    ((⟨v.x, v.y⟩ : Vec2) ∈ vertsBase ∨ (⟨v.x, v.y⟩ : Vec2) ∈ vertsTip) ∧ (v.z = fBatBottom ∨ v.z = fBatTop) := by
  have h1 := List.all_eq_true.mp table_points v h
  rw [List.contains_iff_mem] at h1
  simp only [endPoints, List.mem_flatMap, List.mem_cons, List.not_mem_nil, or_false, Prod.mk.injEq] at h1
  obtain ⟨p, hp, hz⟩ := h1
  have hx : (⟨v.x, v.y⟩ : Vec2) = p := by
    rcases hz with ⟨h1, h2, -⟩ | ⟨h1, h2, -⟩ <;> rw [h1, h2]
  rw [hx]
  exact ⟨List.mem_append.mp hp, hz.imp (·.2.2) (·.2.2)⟩

theorem close_self {p : Vec2} (h : p ∈ vertsBase ++ vertsTip) : closeTo p.x p.x = true ∧ closeTo p.y p.y = true := by
  have := List.all_eq_true.mp points_close.1 p h
  simpa using this

theorem close_other {p q : Vec2} {i j : Nat} (hp : (vertsBase ++ vertsTip)[i]? = some p)
    (hq : (vertsBase ++ vertsTip)[j]? = some q) (h : i ≠ j) : (closeTo p.x q.x && closeTo p.y q.y) = false := by
  have h1 := List.all_eq_true.mp points_apart (p, i) (by rw [List.mem_zipIdx_iff_getElem?]; exact hp)
  have h2 := List.all_eq_true.mp h1 (q, j) (by rw [List.mem_zipIdx_iff_getElem?]; exact hq)
  rw [Bool.and_eq_false_iff]
  simpa [h] using h2

section
variable (sin cos : F32 → F32) (pow : F32 → F32 → F32)

theorem matches_eq (v : Vertex) (x y z : F32) :
    @vertexMatches (ieee sin cos pow) v x y z = (closeTo v.x x && closeTo v.y y && closeTo v.z z) := rfl

theorem close_z {z z' : F32} (hz : z = fBatBottom ∨ z = fBatTop) (hz' : z' = fBatBottom ∨ z' = fBatTop) :
    closeTo z z' = decide (z = z') := by
  obtain ⟨-, h1, h2, h3, h4⟩ := points_close
  rcases hz with rfl | rfl <;> rcases hz' with rfl | rfl
  · simpa using h1
  · rw [h3]; decide
  · rw [h4]; decide
  · simpa using h2

/-- a vertex at point `i` of the ends is compared with point `j` -/
theorem matches_point {v : Vertex} {p q : Vec2} {i j : Nat} {z : F32} (hp : (vertsBase ++ vertsTip)[i]? = some p)
    (hv : (⟨v.x, v.y⟩ : Vec2) = p) (hz : v.z = fBatBottom ∨ v.z = fBatTop) (hq : (vertsBase ++ vertsTip)[j]? = some q)
    (hz' : z = fBatBottom ∨ z = fBatTop) :
    @vertexMatches (ieee sin cos pow) v q.x q.y z = decide (i = j ∧ v.z = z) := by
  rw [matches_eq, close_z hz hz']
  have hx : v.x = p.x := by rw [← hv]
  have hy : v.y = p.y := by rw [← hv]
  rw [hx, hy]
  by_cases h : i = j
  · subst h
    rw [hp] at hq
    cases hq
    obtain ⟨h1, h2⟩ := close_self (List.mem_of_getElem? hp)
    rw [h1, h2]
    simp
  · rw [close_other hp hq h]
    simp [h]

theorem zip_get {k : Nat} {e : Vec2 × Vec2} (h : (vertsBase.zip vertsTip)[k]? = some e) :
    k < 13 ∧ (vertsBase ++ vertsTip)[k]? = some e.1 ∧ (vertsBase ++ vertsTip)[13 + k]? = some e.2 := by
  have hk : k < 13 := by
    have := (List.getElem?_eq_some_iff.mp h).1
    simpa [vertsBase, vertsTip] using this
  rw [List.getElem?_zip_eq_some] at h
  refine ⟨hk, ?_, ?_⟩
  · rw [List.getElem?_append_left (by simpa [vertsBase] using hk)]; exact h.1
  · rw [List.getElem?_append_right (by simp [vertsBase])]
    have : 13 + k - vertsBase.length = k := by simp [vertsBase]
    rw [this]; exact h.2

/-- a vertex at point `i` of the ends only matches at step `i` or `i - 13` -/
theorem matchesEnd_point {v : Vertex} {p : Vec2} {i k : Nat} {e : Vec2 × Vec2} (hp : (vertsBase ++ vertsTip)[i]? = some p)
    (hv : (⟨v.x, v.y⟩ : Vec2) = p) (hz : v.z = fBatBottom ∨ v.z = fBatTop)
    (he : (vertsBase.zip vertsTip)[k]? = some e) :
    @matchesEnd (ieee sin cos pow) v e = decide (i = k ∨ i = 13 + k) := by
  obtain ⟨-, h1, h2⟩ := zip_get he
  unfold matchesEnd
  rw [matches_point sin cos pow hp hv hz h1 (Or.inl rfl), matches_point sin cos pow hp hv hz h2 (Or.inl rfl),
    matches_point sin cos pow hp hv hz h1 (Or.inr rfl), matches_point sin cos pow hp hv hz h2 (Or.inr rfl)]
  by_cases ha : i = k <;> by_cases hb : i = 13 + k <;> rcases hz with hz | hz <;>
    simp [ha, hb, hz, show fBatBottom ≠ fBatTop by decide, show fBatTop ≠ fBatBottom by decide]

theorem fold_at {A : ItemFns} {s : BatShape} {v w : Vertex} {k : Nat} {e : Vec2 × Vec2} {l : List (Vec2 × Vec2)}
    (he : l[k]? = some e)
    (hb : ∀ (j : Nat) d, j < k → l[j]? = some d → @matchesEnd (ieee sin cos pow) v d = false)
    (hw : @fixVertex (ieee sin cos pow) A s e.1 e.2 v = w)
    (ha : ∀ d ∈ l, @matchesEnd (ieee sin cos pow) w d = false) :
    l.foldl (fun v e => @fixVertex (ieee sin cos pow) A s e.1 e.2 v) v = w := by
  let _ := ieee sin cos pow
  induction l generalizing k with
  | nil => cases he
  | cons d l ih =>
    cases k with
    | zero =>
      cases he
      rw [List.foldl_cons, hw]
      exact fold_keeps l w fun x hx => ha x (List.mem_cons_of_mem _ hx)
    | succ k =>
      rw [List.foldl_cons, fixVertex_none (hb 0 d (by omega) rfl)]
      exact ih he (fun j d' hj h => hb (j + 1) d' (by omega) h) fun x hx => ha x (List.mem_cons_of_mem _ hx)

end
end Vpin
