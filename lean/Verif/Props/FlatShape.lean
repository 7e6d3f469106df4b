import Verif.Props.ItemShapes
import Verif.Props.Polygon
import Verif.Props.Curve
import Verif.Lemmas.PlungerMesh
import Verif.Spec.FlatShape
/-
C85: the meshes of flashers and of the inserts of lights.
-/
namespace Vpin
open Geometry

/-! ### With the numbers of the program -/

section
variable [Arith]
open Arith Scene

/-- the outline of the control points, as the code calculates it -/
def flatOutline (fuel : Nat) (points : List DragPoint) : Res (List RenderVertex2D) :=
  getRgVertex2D fuel points (detailLevelToAccuracy fTen) true

/-- **C85**: a flasher has no mesh if it has fewer than three control points, its outline has fewer than three points, or
cannot be filled with triangles. -/
theorem C85_flasher_none (fuel : Nat) (f : Flasher) (d : TableDims) :
    buildFlasherMesh fuel f d = .ok none ↔ f.drag_points.length < 3 ∨
      ∃ vs, flatOutline fuel f.drag_points = .ok vs ∧ (vs.length < 3 ∨ polygonToTriangles vs = .ok []) := by
  unfold buildFlasherMesh flatOutline
  by_cases h3 : f.drag_points.length < 3
  · rw [if_pos h3]; exact ⟨fun _ => .inl h3, fun _ => rfl⟩
  · rw [if_neg h3]
    simp only [h3, false_or]
    cases ho : getRgVertex2D fuel f.drag_points (detailLevelToAccuracy fTen) true with
    | error e =>
      constructor
      · intro h; cases h
      · rintro ⟨vs, h, -⟩; cases h
    | ok vs =>
      simp only [bind, Except.bind, pure, Except.pure, Except.ok.injEq, exists_eq_left']
      by_cases hv : vs.length < 3
      · rw [if_pos hv]; exact ⟨fun _ => .inl hv, fun _ => rfl⟩
      · rw [if_neg hv]
        simp only [hv, false_or]
        cases hp : polygonToTriangles vs with
        | error e => simp
        | ok ts =>
          cases ts with
          | nil => simp
          | cons t ts => simp

/-- **C85**: the mesh of a flasher: a vertex for each point of its outline, and the triangles that fill it (C60). It is
around its own middle, that of the box of the outline, and stands there at the height of the flasher. Without turns a
vertex is the point seen from the middle, facing up; with turns, these turned (`C85_turned`). The image is over the box
of the outline, or over the table if it is aligned to the world. -/
theorem C85_flasher (fuel : Nat) (f : Flasher) (d : TableDims) (m : RawMesh) (pos : Vec3)
    (h : buildFlasherMesh fuel f d = .ok (some (m, pos))) :
    ∃ vs ts, flatOutline fuel f.drag_points = .ok vs ∧ polygonToTriangles vs = .ok ts ∧ 3 ≤ vs.length ∧
      (m.faces = ts.map fun t => ⟨t.1, t.2.1, t.2.2⟩) ∧ m.vertices.length = vs.length ∧
      let b := flasherBounds vs
      let cx := (b.1 +ᶠ b.2.2.1) *ᶠ fHalf
      let cy := (b.2.1 +ᶠ b.2.2.2) *ᶠ fHalf
      pos = ⟨cx, cy, f.height⟩ ∧
      ∀ (i : Nat) v w, vs[i]? = some v → m.vertices[i]? = some w →
        let rad (a : F32) := a *ᶠ fPi /ᶠ 0x43340000 /- 180 -/
        let turn := flasherMatrix (rad f.rot_x) (rad f.rot_y) (rad f.rot_z)
        let still := ((f.rot_x ==ᶠ 0) && (f.rot_y ==ᶠ 0) && (f.rot_z ==ᶠ 0)) = true
        let inv (a : F32) := if (0x358637bd /- 0.000001 -/ : F32) <ᶠ F32.abs a then f32One /ᶠ a else f32One
        (still → ⟨w.x, w.y, w.z⟩ = (⟨v.x -ᶠ cx, v.y -ᶠ cy, 0⟩ : V3 F32) ∧ ⟨w.nx, w.ny, w.nz⟩ = (⟨0, 0, f32One⟩ : V3 F32)) ∧
        (¬ still → ⟨w.x, w.y, w.z⟩ = flasherPoint turn cx cy v.x v.y ∧
          ⟨w.nx, w.ny, w.nz⟩ = turn.multiplyVector ⟨0, 0, f32One⟩) ∧
        (f.image_alignment = .World → w.tu = (v.x -ᶠ d.left) *ᶠ inv (d.right -ᶠ d.left) ∧
          w.tv = (v.y -ᶠ d.top) *ᶠ inv (d.bottom -ᶠ d.top)) ∧
        (f.image_alignment ≠ .World → w.tu = (v.x -ᶠ b.1) *ᶠ inv (b.2.2.1 -ᶠ b.1) ∧
          w.tv = (v.y -ᶠ b.2.1) *ᶠ inv (b.2.2.2 -ᶠ b.2.1)) := by
  unfold buildFlasherMesh at h
  split at h
  · cases h
  · cases ho : getRgVertex2D fuel f.drag_points (detailLevelToAccuracy fTen) true with
    | error e => rw [ho] at h; cases h
    | ok vs =>
      rw [ho] at h
      simp only [bind, Except.bind, pure, Except.pure] at h
      split at h
      · cases h
      · next hv =>
        cases hp : polygonToTriangles vs with
        | error e => rw [hp] at h; cases h
        | ok ts =>
          rw [hp] at h
          dsimp only at h
          split at h
          · cases h
          · simp only [Except.ok.injEq, Option.some.injEq, Prod.mk.injEq] at h
            obtain ⟨hm, hpos⟩ := h
            subst hm hpos
            refine ⟨vs, ts, ho, hp, by omega, rfl, by simp, rfl, ?_⟩
            intro i v w hv hw
            simp only [List.getElem?_map, hv, Option.map_some, Option.some.injEq] at hw
            subst hw
            intro rad turn still inv
            refine ⟨?_, ?_, ?_, ?_⟩
            · intro hs
              unfold applyFlasherRotation
              rw [if_pos hs]
              exact ⟨rfl, rfl⟩
            · intro hs
              unfold applyFlasherRotation
              rw [if_neg hs]
              exact ⟨rfl, rfl⟩
            · intro hw
              unfold applyFlasherRotation
              rw [hw]
              split <;> exact ⟨rfl, rfl⟩
            · intro hw
              unfold applyFlasherRotation
              simp only [if_neg hw]
              split <;> exact ⟨rfl, rfl⟩

/-- **C85**: the insert of a light has no mesh if it is on the backglass, or as for flashers. -/
theorem C85_insert_none (fuel : Nat) (l : Light) (d : TableDims) :
    buildLightInsertMesh fuel l d = .ok none ↔ l.is_backglass = true ∨ l.drag_points.length < 3 ∨
      ∃ vs, flatOutline fuel l.drag_points = .ok vs ∧ (vs.length < 3 ∨ polygonToTriangles vs = .ok []) := by
  unfold buildLightInsertMesh flatOutline
  by_cases h3 : (l.is_backglass || decide (l.drag_points.length < 3)) = true
  · rw [if_pos h3]
    simp only [Bool.or_eq_true, decide_eq_true_eq] at h3
    refine ⟨fun _ => ?_, fun _ => rfl⟩
    rcases h3 with h3 | h3
    · exact .inl h3
    · exact .inr (.inl h3)
  · rw [if_neg h3]
    simp only [Bool.or_eq_true, decide_eq_true_eq, not_or] at h3
    simp only [h3.1, h3.2, false_or]
    cases ho : getRgVertex2D fuel l.drag_points (detailLevelToAccuracy fTen) true with
    | error e =>
      constructor
      · intro h; cases h
      · rintro (h | ⟨vs, h, -⟩) <;> cases h
    | ok vs =>
      simp only [bind, Except.bind, pure, Except.pure, Except.ok.injEq, exists_eq_left']
      by_cases hv : vs.length < 3
      · rw [if_pos hv]; simp [hv]
      · rw [if_neg hv]
        simp only [hv, false_or]
        cases hp : polygonToTriangles vs with
        | error e => simp
        | ok ts =>
          cases ts with
          | nil => simp
          | cons t ts => simp

/-- **C85**: the mesh of the insert of a light: the points of its outline seen from the middle of their box, facing up,
and the triangles that fill it; it stands at that middle, on the table. With an image, the image is over a table that begins at
0 (unlike for flashers, the left and the top are not subtracted); without one, the texture is a circle around the centre of the light that reaches to the farthest point. -/
theorem C85_insert (fuel : Nat) (l : Light) (d : TableDims) (m : RawMesh) (pos : Vec3)
    (h : buildLightInsertMesh fuel l d = .ok (some (m, pos))) :
    ∃ vs ts, flatOutline fuel l.drag_points = .ok vs ∧ polygonToTriangles vs = .ok ts ∧ 3 ≤ vs.length ∧
      (m.faces = ts.map fun t => ⟨t.1, t.2.1, t.2.2⟩) ∧ m.vertices.length = vs.length ∧
      let b := insertBounds vs
      let cx := (b.1 +ᶠ b.2.2.1) *ᶠ fHalf
      let cy := (b.2.1 +ᶠ b.2.2.2) *ᶠ fHalf
      pos = ⟨cx, cy, 0⟩ ∧
      ∀ (i : Nat) v w, vs[i]? = some v → m.vertices[i]? = some w →
        let inv (a : F32) := if (0x358637bd /- 0.000001 -/ : F32) <ᶠ F32.abs a then f32One /ᶠ a else 0
        let sq (v : RenderVertex2D) :=
          (v.x -ᶠ l.center.x) *ᶠ (v.x -ᶠ l.center.x) +ᶠ (v.y -ᶠ l.center.y) *ᶠ (v.y -ᶠ l.center.y)
        let far := (vs.map sq).foldl fmax 0
        let k := if (0 : F32) <ᶠ far then fHalf /ᶠ sqrt far else 0
        ⟨w.x, w.y, w.z⟩ = (⟨v.x -ᶠ cx, v.y -ᶠ cy, 0⟩ : V3 F32) ∧ ⟨w.nx, w.ny, w.nz⟩ = (⟨0, 0, f32One⟩ : V3 F32) ∧
        (l.image ≠ [] → w.tu = v.x *ᶠ inv (d.right -ᶠ d.left) ∧ w.tv = v.y *ᶠ inv (d.bottom -ᶠ d.top)) ∧
        (l.image = [] → w.tu = fHalf +ᶠ (v.x -ᶠ l.center.x) *ᶠ k ∧ w.tv = fHalf +ᶠ (v.y -ᶠ l.center.y) *ᶠ k) := by
  unfold buildLightInsertMesh at h
  split at h
  · cases h
  · cases ho : getRgVertex2D fuel l.drag_points (detailLevelToAccuracy fTen) true with
    | error e => rw [ho] at h; cases h
    | ok vs =>
      rw [ho] at h
      simp only [bind, Except.bind, pure, Except.pure] at h
      split at h
      · cases h
      · next hv =>
        cases hp : polygonToTriangles vs with
        | error e => rw [hp] at h; cases h
        | ok ts =>
          rw [hp] at h
          dsimp only at h
          split at h
          · cases h
          · simp only [Except.ok.injEq, Option.some.injEq, Prod.mk.injEq] at h
            obtain ⟨hm, hpos⟩ := h
            subst hm hpos
            refine ⟨vs, ts, ho, hp, by omega, rfl, by simp, rfl, ?_⟩
            intro i v w hv hw
            simp only [List.getElem?_map, hv, Option.map_some, Option.some.injEq] at hw
            subst hw
            intro inv sq far k
            have hk : insertInvMaxDist l.center vs = k := by
              simp only [k, far]
              rw [List.foldl_map]
              rfl
            refine ⟨rfl, rfl, ?_, ?_⟩
            · intro hi
              unfold insertUv
              rw [if_pos (by cases hl : l.image with | nil => exact absurd hl hi | cons _ _ => rfl)]
              exact ⟨rfl, rfl⟩
            · intro hi
              unfold insertUv
              rw [if_neg (by rw [hi]; decide), hk]
              exact ⟨rfl, rfl⟩

end

/-! ### The box, in IEEE arithmetic -/

section
open Scene

/-- the order of the numbers: total and transitive -/
theorem ieeeLt_order {a b c : F32} (ha : a.isNaN = false) (hb : b.isNaN = false) (hc : c.isNaN = false) :
    ieeeLt a a = false ∧ (ieeeLt b a = true → ieeeLt a b = false) ∧
      (ieeeLt b a = false → ieeeLt a c = false → ieeeLt b c = false) := by
  have e : ∀ {x y : F32}, x.isNaN = false → y.isNaN = false → ieeeLt x y = !ieeeBelow y x := by
    intro x y hx hy
    rw [ieeeBelow_lt hy hx, Bool.not_not]
  rw [e ha ha, e hb ha, e ha hb, e ha hc, e hb hc]
  simp only [Bool.not_eq_false', Bool.not_eq_true', ieeeBelow, decide_eq_true_eq, decide_eq_false_iff_not]
  generalize (if a.isInf = true then 0 else a.val) = va, (if b.isInf = true then 0 else b.val) = vb,
    (if c.isInf = true then 0 else c.val) = vc
  refine ⟨.inr ⟨trivial, Int.le_refl _⟩, fun _ => ?_, fun _ _ => ?_⟩ <;> omega

/-- the best of numbers, by comparing each with the best so far -/
theorem best_of_fold {better : F32 → F32 → Bool} {g : F32 → F32 → F32}
    (hg : ∀ a b, a.isNaN = false → b.isNaN = false → g a b = if better b a then b else a)
    (hr : ∀ a, a.isNaN = false → better a a = false)
    (has : ∀ a b, a.isNaN = false → b.isNaN = false → better b a = true → better a b = false)
    (ht : ∀ a b c, a.isNaN = false → b.isNaN = false → c.isNaN = false → better b a = false → better a c = false →
      better b c = false) :
    ∀ {l : List F32} {start : F32}, start.isNaN = false → (∀ x ∈ l, x.isNaN = false) →
    (l.foldl g start ∈ start :: l) ∧ ∀ x ∈ start :: l, better x (l.foldl g start) = false := by
  intro l
  induction l with
  | nil =>
    intro start hs _
    refine ⟨List.mem_cons_self, ?_⟩
    intro x hx
    obtain rfl : x = start := by simpa using hx
    exact hr x hs
  | cons y l ih =>
    intro start hs h
    have hy := h y List.mem_cons_self
    have hl : ∀ x ∈ l, x.isNaN = false := fun x hx => h x (List.mem_cons_of_mem _ hx)
    rw [List.foldl_cons, hg start y hs hy]
    have hn : ∀ {s : F32}, s.isNaN = false → l.foldl g s ∈ s :: l → (l.foldl g s).isNaN = false := by
      intro s hs h
      rcases List.mem_cons.1 h with h | h
      · rw [h]; exact hs
      · exact hl _ h
    cases hlt : better y start
    · simp only [Bool.false_eq_true, if_false]
      obtain ⟨i1, i2⟩ := ih hs hl
      refine ⟨?_, ?_⟩
      · rcases List.mem_cons.1 i1 with h | h
        · rw [h]; exact List.mem_cons_self
        · exact List.mem_cons_of_mem _ (List.mem_cons_of_mem _ h)
      · intro x hx
        rcases List.mem_cons.1 hx with rfl | hx
        · exact i2 _ List.mem_cons_self
        · rcases List.mem_cons.1 hx with rfl | hx
          · exact ht start x _ hs hy (hn hs i1) hlt (i2 _ List.mem_cons_self)
          · exact i2 _ (List.mem_cons_of_mem _ hx)
    · simp only [if_true]
      obtain ⟨i1, i2⟩ := ih hy hl
      refine ⟨List.mem_cons_of_mem _ i1, ?_⟩
      intro x hx
      rcases List.mem_cons.1 hx with rfl | hx
      · exact ht y x _ hy hs (hn hy i1) (has x y hs hy hlt) (i2 _ List.mem_cons_self)
      · exact i2 _ hx

theorem moderate_number {x : F32} (h : Moderate x) : x.isNaN = false := by
  have := h.1
  unfold ieeeLt at this
  simp only [Bool.and_eq_true, Bool.not_eq_true'] at this
  exact this.1.2

theorem least_of_fold {g : F32 → F32 → F32}
    (hg : ∀ a b, a.isNaN = false → b.isNaN = false → g a b = if ieeeLt b a then b else a) {l : List F32} (h0 : l ≠ [])
    (h : ∀ x ∈ l, Moderate x) : IsLeastOf (l.foldl g fMax) l := by
  obtain ⟨h1, h2⟩ := best_of_fold (better := ieeeLt) hg (fun a ha => (ieeeLt_order ha ha ha).1)
    (fun a b ha hb => (ieeeLt_order ha hb ha).2.1) (fun a b c ha hb hc => (ieeeLt_order ha hb hc).2.2) (l := l)
    (start := fMax) (by decide) (fun x hx => moderate_number (h x hx))
  refine ⟨?_, fun x hx => h2 x (List.mem_cons_of_mem _ hx)⟩
  rcases List.mem_cons.1 h1 with e | h1
  · obtain ⟨x, hx⟩ := List.exists_mem_of_ne_nil l h0
    have := h2 x (List.mem_cons_of_mem _ hx)
    rw [e, show ieeeLt x fMax = true from (h x hx).2] at this
    cases this
  · exact h1

theorem greatest_of_fold {g : F32 → F32 → F32}
    (hg : ∀ a b, a.isNaN = false → b.isNaN = false → g a b = if ieeeLt a b then b else a) {l : List F32} (h0 : l ≠ [])
    (h : ∀ x ∈ l, Moderate x) : IsGreatestOf (l.foldl g fMin) l := by
  obtain ⟨h1, h2⟩ := best_of_fold (better := fun a b => ieeeLt b a) hg (fun a ha => (ieeeLt_order ha ha ha).1)
    (fun a b ha hb => (ieeeLt_order hb ha ha).2.1)
    (fun a b c ha hb hc h1 h2 => (ieeeLt_order ha hc hb).2.2 h2 h1) (l := l)
    (start := fMin) (by decide) (fun x hx => moderate_number (h x hx))
  refine ⟨?_, fun x hx => h2 x (List.mem_cons_of_mem _ hx)⟩
  rcases List.mem_cons.1 h1 with e | h1
  · obtain ⟨x, hx⟩ := List.exists_mem_of_ne_nil l h0
    have := h2 x (List.mem_cons_of_mem _ hx)
    rw [e, show ieeeLt fMin x = true from (h x hx).1] at this
    cases this
  · exact h1

/-- the four folds of the bounds -/
theorem flasherBounds_parts [Arith] (vs : List RenderVertex2D) : flasherBounds vs =
    ((vs.map (·.x)).foldl (fun a b => if Arith.lt b a then b else a) fMax,
      (vs.map (·.y)).foldl (fun a b => if Arith.lt b a then b else a) fMax,
      (vs.map (·.x)).foldl (fun a b => if Arith.lt a b then b else a) fMin,
      (vs.map (·.y)).foldl (fun a b => if Arith.lt a b then b else a) fMin) := by
  unfold flasherBounds
  generalize fMax = a, fMin = b
  have : ∀ (vs : List RenderVertex2D) (a1 a2 b1 b2 : F32), vs.foldl (fun (minx, miny, maxx, maxy) v =>
      (if Arith.lt v.x minx then v.x else minx, if Arith.lt v.y miny then v.y else miny,
        if Arith.lt maxx v.x then v.x else maxx, if Arith.lt maxy v.y then v.y else maxy)) (a1, a2, b1, b2) =
      ((vs.map (·.x)).foldl (fun a b => if Arith.lt b a then b else a) a1,
      (vs.map (·.y)).foldl (fun a b => if Arith.lt b a then b else a) a2,
      (vs.map (·.x)).foldl (fun a b => if Arith.lt a b then b else a) b1,
      (vs.map (·.y)).foldl (fun a b => if Arith.lt a b then b else a) b2) := by
    intro vs
    induction vs with
    | nil => intros; rfl
    | cons v vs ih => intros; simp only [List.foldl_cons, List.map_cons]; rw [ih]
  exact this vs a a b b

theorem insertBounds_parts [Arith] (vs : List RenderVertex2D) : insertBounds vs =
    ((vs.map (·.x)).foldl Arith.fmin fMax, (vs.map (·.y)).foldl Arith.fmin fMax, (vs.map (·.x)).foldl Arith.fmax fMin,
      (vs.map (·.y)).foldl Arith.fmax fMin) := by
  unfold insertBounds
  have : ∀ (vs : List RenderVertex2D) (a1 a2 b1 b2 : F32), vs.foldl (fun (minx, miny, maxx, maxy) v =>
      (Arith.fmin minx v.x, Arith.fmin miny v.y, Arith.fmax maxx v.x, Arith.fmax maxy v.y)) (a1, a2, b1, b2) =
      ((vs.map (·.x)).foldl Arith.fmin a1, (vs.map (·.y)).foldl Arith.fmin a2, (vs.map (·.x)).foldl Arith.fmax b1,
      (vs.map (·.y)).foldl Arith.fmax b2) := by
    intro vs
    induction vs with
    | nil => intros; rfl
    | cons v vs ih => intros; simp only [List.foldl_cons, List.map_cons]; rw [ih]
  exact this vs fMax fMax fMin fMin

/-- **C85**: in IEEE arithmetic, the bounds of a flasher and of an insert are the smallest box around the points of the
outline, whose coordinates are less than the greatest number. -/
theorem C85_bounds (sin cos : F32 → F32) (pow : F32 → F32 → F32) (vs : List RenderVertex2D) (h0 : vs ≠ [])
    (h : ∀ v ∈ vs, Moderate v.x ∧ Moderate v.y) :
    letI := ieee sin cos pow
    (let b := flasherBounds vs
     Box.Bounds ⟨b.1, b.2.1, b.2.2.1, b.2.2.2⟩ vs) ∧
    (let b := insertBounds vs
     Box.Bounds ⟨b.1, b.2.1, b.2.2.1, b.2.2.2⟩ vs) := by
  let _ := ieee sin cos pow
  have hx : ∀ x ∈ vs.map (·.x), Moderate x := by
    intro x hx; obtain ⟨v, hv, rfl⟩ := List.mem_map.1 hx; exact (h v hv).1
  have hy : ∀ x ∈ vs.map (·.y), Moderate x := by
    intro x hx; obtain ⟨v, hv, rfl⟩ := List.mem_map.1 hx; exact (h v hv).2
  have nx : vs.map (·.x) ≠ [] := by simpa using h0
  have ny : vs.map (·.y) ≠ [] := by simpa using h0
  constructor
  · rw [flasherBounds_parts]
    refine ⟨?_, ?_, ?_, ?_⟩
    · exact least_of_fold (fun _ _ _ _ => rfl) nx hx
    · exact least_of_fold (fun _ _ _ _ => rfl) ny hy
    · exact greatest_of_fold (fun _ _ _ _ => rfl) nx hx
    · exact greatest_of_fold (fun _ _ _ _ => rfl) ny hy
  · have emin : ∀ a b : F32, a.isNaN = false → b.isNaN = false → Arith.fmin a b = if ieeeLt b a then b else a := by
      intro a b ha hb
      show (if a.isNaN then b else if b.isNaN then a else if ieeeLt b a then b else a) = _
      rw [ha, hb]
      rfl
    have emax : ∀ a b : F32, a.isNaN = false → b.isNaN = false → Arith.fmax a b = if ieeeLt a b then b else a := by
      intro a b ha hb
      show (if a.isNaN then b else if b.isNaN then a else if ieeeLt a b then b else a) = _
      rw [ha, hb]
      rfl
    rw [insertBounds_parts]
    exact ⟨least_of_fold emin nx hx, least_of_fold emin ny hy, greatest_of_fold emax nx hx, greatest_of_fold emax ny hy⟩

end

/-! ### With exact numbers -/

section
open Lean.Grind
variable {α : Type} [Field α] {sin cos radians : α → α}

/-- **C85**, with exact numbers: a point of a flasher is turned about the x axis, the y axis and then the z axis, by the
three angles. -/
theorem C85_turned (ax ay az cx cy x y : α) (n : V3 α) :
    letI := exactOps sin cos radians
    let turn p := turnZ (cos az) (sin az) (turnY (cos ay) (sin ay) (turnX (cos ax) (sin ax) p))
    flasherPoint (flasherMatrix ax ay az) cx cy x y = turn ⟨x - cx, y - cy, 0⟩ ∧
      (flasherMatrix ax ay az).multiplyVector n = turn n := by
  unfold flasherPoint flasherMatrix Mat3.multiplyVector
  simp only [exact_add, exact_sub, exact_mul, exact_neg, exact_zero, exact_sin, exact_cos, turnX, turnY, turnZ,
    V3.mk.injEq]
  refine ⟨⟨?_, ?_, ?_⟩, ?_, ?_, ?_⟩ <;> grind

/-- **C85**, with exact numbers: distances of points of the outline are kept, and the normal is at right angles to all
edges and has length one. -/
theorem C85_flat (ax ay az cx cy x y x' y' : α) (hx : cos ax * cos ax + sin ax * sin ax = 1)
    (hy : cos ay * cos ay + sin ay * sin ay = 1) (hz : cos az * cos az + sin az * sin az = 1) :
    letI := exactOps sin cos radians
    let m := flasherMatrix ax ay az
    let p := flasherPoint m cx cy x y
    let q := flasherPoint m cx cy x' y'
    let n := m.multiplyVector ⟨0, 0, 1⟩
    sqDist p q = (x - x') * (x - x') + (y - y') * (y - y') ∧ dot n (Geometry.sub p q) = 0 ∧ dot n n = 1 := by
  intro m p q n
  have ep := (C85_turned (sin := sin) (cos := cos) (radians := radians) ax ay az cx cy x y ⟨0, 0, 1⟩)
  have eq := (C85_turned (sin := sin) (cos := cos) (radians := radians) ax ay az cx cy x' y' ⟨0, 0, 1⟩)
  have tx : ∀ a b : V3 α, dot (turnX (cos ax) (sin ax) a) (turnX (cos ax) (sin ax) b) = dot a b := by
    intro a b; simp only [dot, turnX]; grind
  have ty : ∀ a b : V3 α, dot (turnY (cos ay) (sin ay) a) (turnY (cos ay) (sin ay) b) = dot a b := by
    intro a b; simp only [dot, turnY]; grind
  have tz : ∀ a b : V3 α, dot (turnZ (cos az) (sin az) a) (turnZ (cos az) (sin az) b) = dot a b := by
    intro a b; simp only [dot, turnZ]; grind
  have es : ∀ a b : V3 α, Geometry.sub (turnZ (cos az) (sin az) (turnY (cos ay) (sin ay) (turnX (cos ax) (sin ax) a)))
      (turnZ (cos az) (sin az) (turnY (cos ay) (sin ay) (turnX (cos ax) (sin ax) b))) =
      turnZ (cos az) (sin az) (turnY (cos ay) (sin ay) (turnX (cos ax) (sin ax) (Geometry.sub a b))) := by
    intro a b; simp only [Geometry.sub, turnX, turnY, turnZ, V3.mk.injEq]
    refine ⟨?_, ?_, ?_⟩ <;> grind
  rw [show p = _ from ep.1, show q = _ from eq.1, show n = _ from ep.2, sqDist, es, tz, ty, tx, tz, ty, tx, tz, ty, tx]
  simp only [Geometry.sub, dot]
  refine ⟨?_, ?_, ?_⟩ <;> grind

end
/-! ### Examples -/

section
attribute [local instance] ieeeExact
open Scene

/-- a rectangle of control points: from 0 to 4 and 0 to 2 -/
def flatPoints : List DragPoint :=
  [{ DragPoint.default with x := 0, y := 0 }, { DragPoint.default with x := fFour, y := 0 },
    { DragPoint.default with x := fFour, y := fTwo }, { DragPoint.default with x := 0, y := fTwo }]

/-- a flasher of this shape at height 10 has a mesh around (2, 1, 10) -/
example : ((buildFlasherMesh 10 { Flasher.default with drag_points := flatPoints, height := fTen }
      ⟨0, 0, fTen, fTen⟩).toOption.map fun r => r.map fun (m, pos) =>
      (m.vertices.length, m.faces.length, pos)) = some (some (4, 2, ⟨fTwo, f32One, fTen⟩)) := by
  decide +kernel

/-- turned by 45 degrees about x it has a mesh, too -/
example : ((buildFlasherMesh 10 { Flasher.default with drag_points := flatPoints, height := fTen, rot_x := 0x42340000 }
      ⟨0, 0, fTen, fTen⟩).toOption.map fun r => r.map fun (m, pos) =>
      (m.vertices.length, m.faces.length, pos)) = some (some (4, 2, ⟨fTwo, f32One, fTen⟩)) := by
  decide +kernel

/-- an insert of this shape: it stands on the table -/
example : ((buildLightInsertMesh 10 { Light.default with drag_points := flatPoints } ⟨0, 0, fTen, fTen⟩).toOption.map
      fun r => r.map fun (m, pos) => (m.vertices.map (fun w => (w.x, w.y)), pos)) =
    some (some ([(fTwo.neg, f32One.neg), (fTwo, f32One.neg), (fTwo, f32One), (fTwo.neg, f32One)],
      ⟨fTwo, f32One, 0⟩)) := by
  decide +kernel

/-- two control points give none -/
example : buildFlasherMesh 10 { Flasher.default with drag_points := flatPoints.take 2 } ⟨0, 0, fTen, fTen⟩ = .ok none := by
  rw [C85_flasher_none]
  exact .inl (by decide)

/-- the points meet the condition of `C85_bounds` -/
example : ∀ x ∈ [(0 : F32), fTwo, fFour], Moderate x := by
  unfold Moderate
  decide +kernel

/-- angles meet the conditions of `C85_flat` -/
example : let c : Rat := 3 / 5
    let s : Rat := 4 / 5
    c * c + s * s = 1 := by decide +kernel

end
end Vpin
