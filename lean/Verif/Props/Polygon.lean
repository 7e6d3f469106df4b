import Verif.Lemmas.Polygon
/-
C60: triangulating a polygon (wall tops, flashers, light surfaces).

All statements hold for every `[Arith]`, that is whatever the rounding of `f32` does to the tests
inside the triangulation.
-/
namespace Vpin

/-- The areas of the triangles of any surface with rim `rim` add up to the area of the polygon
`rim`, wherever the corners are (independent of the code). -/
theorem area_of_rim (ts : List Tri) (rim : List Nat) (h : SurfaceWithRim ts rim)
    (p : Nat → Int × Int) : (ts.map (triArea2 p)).sum = loopArea2 p rim := by
  have h1 := (balanced_iff _).1 h.2 _ (area_antisym p)
  rw [esum_append, esum_loop_reverse _ (area_antisym p)] at h1
  rw [esum_triEdges_area]
  show _ = esum (fun u v => (p u).1 * (p v).2 - (p v).1 * (p u).2) (loopEdges rim)
  omega

/-- from the loop to the statements below -/
theorem clipped_surface {n adv} (hadv : AdvOk n adv) (poly : List Nat) (hn : poly.length = n)
    (h3 : 3 ≤ n) (hnd : poly.Nodup) (hlt : ∀ v ∈ poly, v < n) :
    ∃ ts, clipEars adv (n - 2) poly = .ok ts ∧ ts.length ≤ n - 2 ∧ InRange n ts ∧
      (∀ t ∈ ts, t.Proper) ∧ (triEdges ts).Nodup ∧
      (∀ t ∈ ts, ∃ p pre post, adv p t.1 t.2.2 t.2.1 pre post = .ok true) ∧
      (∃ rest : List Nat, rest.Sublist poly ∧ rest.length + ts.length = n ∧
        Balanced (triEdges ts ++ loopEdges poly ++ loopEdges rest.reverse)) ∧
      (ts.length = n - 2 → SurfaceWithRim ts poly.reverse) := by
  obtain ⟨ts, rest, h, hc⟩ := clipEars_ok hadv (n - 2) poly (by omega) hnd hlt
  refine ⟨ts, h, hc.count, ?_, hc.proper, hc.nodup, hc.tested, ⟨rest, hc.sub, ?_, ?_⟩, ?_⟩
  · intro t ht
    have := hc.corners t ht
    exact ⟨hlt _ this.1, hlt _ this.2.1, hlt _ this.2.2⟩
  · rw [hc.len, hn]
  · rw [balanced_iff]
    intro f hf
    have := hc.sum f hf
    rw [esum_append, esum_append, esum_loop_reverse f hf]
    omega
  · intro hl
    refine ⟨hc.nodup, ?_⟩
    rw [balanced_iff]
    intro f hf
    have h1 := hc.sum f hf
    have h2 := hc.len
    rw [List.reverse_reverse, esum_append, h1]
    match rest, h2 with
    | [u, v], _ =>
      simp only [loopEdges, List.tail_cons, List.take_succ_cons, List.take_zero, List.cons_append,
        List.nil_append, List.zip_cons_cons, List.zip_nil_left, esum_cons, esum_nil]
      have := hf u v
      omega
    | [], h2 => simp at h2; omega
    | [_], h2 => simp at h2; omega
    | _ :: _ :: _ :: _, h2 => simp at h2; omega

section
variable [Arith]

/-- **C60**, wall tops. Triangulating a polygon of `n ≥ 3` points never panics and gives at most
`n - 2` triangles, each with three different corners of the polygon; no directed edge is used twice;
no triangle turns against the polygon; and what is not covered is a polygon on the remaining points,
so that the triangles never leave a gap or overlap along an edge. If there are `n - 2` triangles, they
form a surface whose rim is the whole polygon: the points in order if the polygon's area is positive,
in reverse order otherwise. -/
theorem C60_wall_top (points : List (F32 × F32)) (h3 : 3 ≤ points.length) :
    ∃ ts, triangulatePolygon points = .ok ts ∧ ts.length ≤ points.length - 2 ∧
      InRange points.length ts ∧ (∀ t ∈ ts, t.Proper) ∧ (triEdges ts).Nodup ∧
      (∀ t ∈ ts, ∃ a c b, points[t.1]? = some a ∧ points[t.2.1]? = some c ∧ points[t.2.2]? = some b ∧
        Arith.lt (dot2d a b c) 0 = false) ∧
      (∃ rest : List Nat, rest.Sublist
          (if Arith.lt 0 (signedArea points) then (List.range points.length).reverse
            else List.range points.length) ∧
        rest.length + ts.length = points.length ∧
        Balanced (triEdges ts
          ++ loopEdges (if Arith.lt 0 (signedArea points) then (List.range points.length).reverse
            else List.range points.length)
          ++ loopEdges rest.reverse)) ∧
      (ts.length = points.length - 2 →
        SurfaceWithRim ts (if Arith.lt 0 (signedArea points) then List.range points.length
          else (List.range points.length).reverse)) := by
  have key := clipped_surface (wallAdvance_ok points)
    (if Arith.lt 0 (signedArea points) then (List.range points.length).reverse
      else List.range points.length) (by split <;> simp) h3
    (by split
        · exact (List.reverse_perm _).nodup_iff.2 List.nodup_range
        · exact List.nodup_range)
    (by split <;> simp)
  obtain ⟨ts, h, hcount, hr, hp, hnd, hadv, hrest, hsurf⟩ := key
  refine ⟨ts, ?_, hcount, hr, hp, hnd, ?_, hrest, ?_⟩
  · unfold triangulatePolygon
    rw [if_neg (by omega)]
    exact h
  · intro t ht
    obtain ⟨p, pre, post, ha⟩ := hadv t ht
    obtain ⟨pa, pb, pc, h1, h2, h3, h4⟩ := wallAdvance_true ha
    exact ⟨pa, pc, pb, h1, h3, h2, h4⟩
  · intro hl
    have := hsurf hl
    split <;> rename_i hs
    · simpa [hs] using this
    · simpa [hs] using this

/-- Fewer than three points give no triangles. -/
theorem C60_wall_top_small (points : List (F32 × F32)) (h : points.length < 3) :
    triangulatePolygon points = .ok [] := if_pos h

/-- **C60**, flashers and light surfaces: the same for the other triangulation, which decides by the
lowest corner whether the polygon is clockwise. -/
theorem C60_polygon (vs : List RenderVertex2D) (h3 : 3 ≤ vs.length) :
    ∃ cw ts, isClockwise vs = .ok cw ∧ polygonToTriangles vs = .ok ts ∧
      ts.length ≤ vs.length - 2 ∧ InRange vs.length ts ∧ (∀ t ∈ ts, t.Proper) ∧ (triEdges ts).Nodup ∧
      (∀ t ∈ ts, ∃ a c b, vs[t.1]? = some a ∧ vs[t.2.1]? = some c ∧ vs[t.2.2]? = some b ∧
        Arith.lt (dot2d a.xy b.xy c.xy) 0 = false) ∧
      (∃ rest : List Nat, rest.Sublist
          (if cw then (List.range vs.length).reverse else List.range vs.length) ∧
        rest.length + ts.length = vs.length ∧
        Balanced (triEdges ts
          ++ loopEdges (if cw then (List.range vs.length).reverse else List.range vs.length)
          ++ loopEdges rest.reverse)) ∧
      (ts.length = vs.length - 2 →
        SurfaceWithRim ts
          (if cw then List.range vs.length else (List.range vs.length).reverse)) := by
  obtain ⟨cw, hcw⟩ := isClockwise_ok vs
  have key := clipped_surface (polyAdvance_ok vs)
    (if cw then (List.range vs.length).reverse else List.range vs.length)
    (by split <;> simp) h3
    (by split
        · exact (List.reverse_perm _).nodup_iff.2 List.nodup_range
        · exact List.nodup_range)
    (by split <;> simp)
  obtain ⟨ts, h, hcount, hr, hp, hnd, hadv, hrest, hsurf⟩ := key
  refine ⟨cw, ts, hcw, ?_, hcount, hr, hp, hnd, ?_, hrest, ?_⟩
  · unfold polygonToTriangles
    simp only [if_neg (show ¬ vs.length < 3 by omega), hcw, bind, Except.bind, pure, Except.pure]
    exact h
  · intro t ht
    obtain ⟨p, pre, post, ha⟩ := hadv t ht
    obtain ⟨pa, pb, pc, h1, h2, h3, h4⟩ := polyAdvance_true ha
    exact ⟨pa, pc, pb, h1, h3, h2, h4⟩
  · intro hl
    have := hsurf hl
    cases cw
    · simpa using this
    · simpa using this

theorem C60_polygon_small (vs : List RenderVertex2D) (h : vs.length < 3) :
    polygonToTriangles vs = .ok [] := by
  unfold polygonToTriangles
  simp only [if_pos h]
  rfl

end

/-! ### Concrete cases, in IEEE arithmetic -/

section
attribute [local instance] ieeeExact

/-- an L-shaped (concave) polygon in counter-clockwise order -/
def ellShape : List (F32 × F32) :=
  [(0, 0), (fTwo, 0), (fTwo, f32One), (f32One, f32One), (f32One, fTwo), (0, fTwo)]

/-- the triangulation of the L-shape is complete, so the last part of `C60_wall_top` applies -/
example : triangulatePolygon ellShape = .ok [(5, 3, 4), (3, 1, 2), (5, 1, 3), (5, 0, 1)] := by
  decide +kernel

example : SurfaceWithRim [(5, 3, 4), (3, 1, 2), (5, 1, 3), (5, 0, 1)] [0, 1, 2, 3, 4, 5] := by
  obtain ⟨ts, h, -, -, -, -, -, -, hs⟩ := C60_wall_top ellShape (by decide)
  have h' : triangulatePolygon ellShape = .ok [(5, 3, 4), (3, 1, 2), (5, 1, 3), (5, 0, 1)] := by
    decide +kernel
  rw [h'] at h
  cases h
  have hp : Arith.lt 0 (signedArea ellShape) = true := by decide +kernel
  have := hs rfl
  rw [if_pos hp] at this
  exact this

/-- in clockwise order the rim is reversed -/
example : Arith.lt 0 (signedArea ellShape.reverse) = false ∧
    triangulatePolygon ellShape.reverse = .ok [(0, 2, 1), (2, 4, 3), (0, 4, 2), (0, 5, 4)] := by
  decide +kernel

/-- the other triangulation of the same points -/
example : polygonToTriangles (ellShape.map fun p => { x := p.1, y := p.2 }) =
    .ok [(5, 3, 4), (3, 1, 2), (5, 1, 3), (5, 0, 1)] := by
  decide +kernel

/-! ### What does not hold

"Every simple polygon is covered" is false of the code: the intersection test treats points on the
line of the diagonal by their x coordinate alone, and refuses ears that are free. -/

/-- a simple polygon with six corners -/
def darkHexagon : List (Int × Int) := [(1, 3), (3, 2), (1, 1), (0, 0), (1, 2), (0, 1)]

/-- its corners as `f32` -/
def darkHexagonF32 : List (F32 × F32) :=
  [(f32One, fThree), (fThree, fTwo), (f32One, f32One), (0, 0), (f32One, fTwo), (0, f32One)]

example : darkHexagonF32 = darkHexagon.map fun p => (f32OfFrac p.1.toNat 1, f32OfFrac p.2.toNat 1) := by
  decide +kernel

/-- The triangulation of a simple polygon can be empty. -/
theorem C60_simple_polygon_counterexample :
    SimplePolygon darkHexagon ∧ triangulatePolygon darkHexagonF32 = .ok [] := by
  decide +kernel

end
end Vpin
