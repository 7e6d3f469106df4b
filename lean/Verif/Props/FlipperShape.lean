import Mathlib.Analysis.SpecialFunctions.Trigonometric.Inverse
import Verif.Props.ItemShapes
import Verif.Lemmas.FlipperMesh
/-
C83: the mesh of a flipper.
-/
namespace Vpin
open Geometry

/-! ### With the numbers of the program -/

section
variable [Arith]
open Arith Scene

/-- **C83**: a visible flipper has a bat, and a rubber if its thickness is positive. Both are the table of the bat: the
same triangles; a vertex is put on the circles of the ends (`C83_round`), turned to the start angle of the flipper and
made as high as the bat or the rubber, which begins at its own height (`C83_points`); normals are turned with it. The
texture of the rubber is the lower half. The numbers of the rubber are those of the newer fields if they are there.
The bat is thinner than the flipper by the thickness of the rubber. -/
theorem C83_meshes (A : ItemFns) (T : MeshTables) (f : Flipper) (h : F32) :
    (buildFlipperMeshes A T f h = none ↔ f.is_visible = false) ∧
    ∀ c bat rubber, buildFlipperMeshes A T f h = some (c, bat, rubber) →
      let thickness := f.rubber_thickness.getD (ofNat f.rubber_thickness_int.toNat)
      let rubberBegin := f.rubber_height.getD (ofNat f.rubber_height_int.toNat)
      let rubberHeight := f.rubber_width.getD (ofNat f.rubber_width_int.toNat)
      let sine := (f.base_radius -ᶠ f.end_radius) /ᶠ f.flipper_radius_max
      let shape (baseRadius endRadius : F32) : BatShape :=
        ⟨baseRadius, endRadius, f.flipper_radius_max, A.asin (clampOne sine) /ᶠ (fPi *ᶠ fHalf)⟩
      let rb := f.base_radius -ᶠ thickness
      let re := f.end_radius -ᶠ thickness
      let Bat (m : RawMesh) (s : BatShape) (height lift : F32) (tv : F32 → F32) : Prop :=
        (m.faces = T.flipperBase.tris.map fun x => ⟨x.1, x.2.1, x.2.2⟩) ∧
        m.vertices.length = T.flipperBase.vertices.length ∧
        ∀ (k : Nat) v w, T.flipperBase.vertices[k]? = some v → m.vertices[k]? = some w →
          let p := fixedVertex A s v
          ⟨w.x, w.y, w.z⟩ = flipperPoint 0x43340000 /- 180 -/ f.start_angle height lift ⟨p.x, p.y, p.z⟩ ∧
            ⟨w.nx, w.ny, w.nz⟩ = flipperNormal 0x43340000 f.start_angle ⟨v.nx, v.ny, v.nz⟩ ∧
            w.tu = v.tu ∧ w.tv = tv v.tv
      c = ⟨f.center.x, f.center.y, h⟩ ∧ Bat bat (shape rb re) f.height h id ∧
        (rubber.isSome = true ↔ ((0 : F32) <ᶠ thickness) = true) ∧
        ∀ r, rubber = some r →
          Bat r (shape (rb +ᶠ thickness) (re +ᶠ thickness)) rubberHeight (h +ᶠ rubberBegin) (· +ᶠ fHalf) := by
  have hb : ∀ (s : BatShape) (height lift : F32) (tv : F32 → F32) (k : Nat) v w,
      T.flipperBase.vertices[k]? = some v →
      (T.flipperBase.vertices.map (flipperVertex A s f.start_angle height lift tv))[k]? = some w →
      w = flipperVertex A s f.start_angle height lift tv v := by
    intro s height lift tv k v w hv hw
    rw [List.getElem?_map, hv] at hw
    cases hw
    rfl
  unfold buildFlipperMeshes buildFlipperMeshesUnchecked
  cases f.is_visible
  · exact ⟨by simp, by intro c b r h; cases h⟩
  · refine ⟨by simp, ?_⟩
    intro c bat rubber he
    cases he
    refine ⟨rfl, ⟨rfl, by simp, ?_⟩, ?_, ?_⟩
    · intro k v w hv hw
      cases hb _ _ _ _ k v w hv hw
      exact ⟨rfl, rfl, rfl, rfl⟩
    · show (Option.isSome (if ((0 : F32) <ᶠ f.thickness) = true then _ else _) = true ↔ ((0 : F32) <ᶠ f.thickness) = true)
      cases ((0 : F32) <ᶠ f.thickness) <;> simp
    · intro r hr
      split at hr
      · cases hr
        refine ⟨rfl, by simp, ?_⟩
        intro k v w hv hw
        cases hb _ _ _ _ k v w hv hw
        exact ⟨rfl, rfl, rfl, rfl⟩
      · cases hr

end

/-! ### As one mesh -/

/-- the triangles of a mesh, as the vertices at their corners -/
def RawMesh.solid (m : RawMesh) : List (List (Option Vertex)) :=
  m.faces.map fun f => [f.i0, f.i1, f.i2].map fun i => if i < 0 then none else m.vertices[i.toNat]?

section
variable [Arith]
open Arith

/-- **C83**: as one mesh, the flipper is the bat and behind it the rubber, if it has one: as triangles in space, exactly
theirs, with the centre of the flipper added to every corner. -/
theorem C83_one_mesh (A : ItemFns) (T : MeshTables) (f : Flipper) (h : F32)
    (hT : ∀ t ∈ T.flipperBase.tris, ∀ i ∈ [t.1, t.2.1, t.2.2], i < T.flipperBase.vertices.length) :
    (buildFlipperMesh A T f h = none ↔ f.is_visible = false) ∧
    ∀ c bat rubber m, buildFlipperMeshes A T f h = some (c, bat, rubber) → buildFlipperMesh A T f h = some m →
      let moved (corner : Option Vertex) : Option Vertex :=
        corner.map fun v => { v with x := v.x +ᶠ f.center.x, y := v.y +ᶠ f.center.y }
      m.solid = (bat.solid ++ (rubber.map RawMesh.solid).getD []).map (·.map moved) ∧
        ∀ t ∈ m.solid, ∀ corner ∈ t, corner.isSome = true := by
  constructor
  · have := (C83_meshes A T f h).1
    unfold buildFlipperMesh
    rw [Option.map_eq_none_iff]
    exact this
  intro c bat rubber m hb hm
  obtain ⟨-, ⟨hf, hn, -⟩, -, hr⟩ := (C83_meshes A T f h).2 c bat rubber hb
  unfold buildFlipperMesh at hm
  rw [hb] at hm
  dsimp only [Option.map_some] at hm
  have nn : ∀ a : Nat, ¬ ((a : Int) < 0) := fun a => by omega
  cases rubber with
  | none =>
    cases hm
    dsimp only
    refine ⟨?_, ?_⟩
    · simp only [RawMesh.solid, Option.map_none, Option.getD_none, List.append_nil, List.map_map, Function.comp_def,
        List.map_cons, List.map_nil, List.getElem?_map, apply_ite (Option.map _), Option.map_none]
    · intro t ht
      simp only [RawMesh.solid, hf, List.map_map, List.mem_map, Function.comp_def] at ht
      obtain ⟨x, hx, rfl⟩ := ht
      intro k hk
      simp only [List.map_cons, List.map_nil, List.mem_cons, List.not_mem_nil, or_false] at hk
      have hi := hT x hx
      simp only [List.mem_cons, List.not_mem_nil, or_false, forall_eq_or_imp, forall_eq] at hi
      rcases hk with rfl | rfl | rfl <;>
        rw [if_neg (nn _), Int.toNat_natCast, List.getElem?_eq_getElem (by rw [List.length_map, hn]; omega)] <;> rfl
  | some r =>
    obtain ⟨rf, rn, -⟩ := hr r rfl
    cases hm
    dsimp only
    have key : ∀ (g : Vertex → Vertex) (a b : List Vertex) (i : Nat), i < b.length →
        (if ((i : Int) + a.length) < 0 then none else (a.map g ++ b.map g)[((i : Int) + a.length).toNat]?) =
          Option.map g (if (i : Int) < 0 then none else b[(i : Int).toNat]?) := by
      intro g a b i hi
      have e : ((i : Int) + a.length).toNat = a.length + i := by omega
      rw [if_neg (by omega), if_neg (by omega), e, List.getElem?_append_right (by rw [List.length_map]; omega),
        List.length_map, Nat.add_sub_cancel_left, List.getElem?_map, Int.toNat_natCast]
    have key0 : ∀ (g : Vertex → Vertex) (a b : List Vertex) (i : Nat), i < a.length →
        (if (i : Int) < 0 then none else (a.map g ++ b.map g)[(i : Int).toNat]?) =
          Option.map g (if (i : Int) < 0 then none else a[(i : Int).toNat]?) := by
      intro g a b i hi
      rw [if_neg (by omega), if_neg (by omega), Int.toNat_natCast,
        List.getElem?_append_left (by rw [List.length_map]; omega), List.getElem?_map]
    refine ⟨?_, ?_⟩
    · simp only [RawMesh.solid, Option.map_some, Option.getD_some, List.map_append, List.map_map]
      congr 1
      · rw [hf]
        simp only [List.map_map]
        refine List.map_congr_left fun x hx => ?_
        have hi := hT x hx
        simp only [List.mem_cons, List.not_mem_nil, or_false, forall_eq_or_imp, forall_eq] at hi
        simp only [Function.comp_apply, List.map_cons, List.map_nil]
        rw [key0 _ _ _ _ (by omega), key0 _ _ _ _ (by omega), key0 _ _ _ _ (by omega)]
      · rw [rf]
        simp only [List.map_map]
        refine List.map_congr_left fun x hx => ?_
        have hi := hT x hx
        simp only [List.mem_cons, List.not_mem_nil, or_false, forall_eq_or_imp, forall_eq] at hi
        simp only [Function.comp_apply, List.map_cons, List.map_nil]
        rw [key _ _ _ _ (by omega), key _ _ _ _ (by omega), key _ _ _ _ (by omega)]
    · intro t ht
      simp only [RawMesh.solid, List.map_append, List.map_map, List.mem_append] at ht
      rcases ht with ht | ht
      · rw [hf] at ht
        simp only [List.map_map, List.mem_map, Function.comp_apply] at ht
        obtain ⟨x, hx, rfl⟩ := ht
        have hi := hT x hx
        simp only [List.mem_cons, List.not_mem_nil, or_false, forall_eq_or_imp, forall_eq] at hi
        intro k hk
        simp only [List.map_cons, List.map_nil, List.mem_cons, List.not_mem_nil, or_false] at hk
        rcases hk with rfl | rfl | rfl <;> rw [key0 _ _ _ _ (by omega), if_neg (nn _), Int.toNat_natCast,
          List.getElem?_eq_getElem (by omega)] <;> rfl
      · rw [rf] at ht
        simp only [List.map_map, List.mem_map, Function.comp_apply] at ht
        obtain ⟨x, hx, rfl⟩ := ht
        have hi := hT x hx
        simp only [List.mem_cons, List.not_mem_nil, or_false, forall_eq_or_imp, forall_eq] at hi
        intro k hk
        simp only [List.map_cons, List.map_nil, List.mem_cons, List.not_mem_nil, or_false] at hk
        rcases hk with rfl | rfl | rfl <;> rw [key _ _ _ _ (by omega), if_neg (nn _), Int.toNat_natCast,
          List.getElem?_eq_getElem (by omega)] <;> rfl

end

/-! ### The round ends, in IEEE arithmetic -/

section
variable (sin cos : F32 → F32) (pow : F32 → F32 → F32)

/-- **C83**: whatever the radii, every vertex of the bat ends on one of two circles, that of the base around the origin
or that of the tip, which is as far away as the flipper is long; its height is that of the table. (In IEEE arithmetic with
any sine and cosine: every vertex of the table is found among the points of the round ends.) -/
theorem C83_round (A : ItemFns) (s : BatShape) (v : Vertex) (hv : v ∈ meshTables.flipperBase.vertices) :
    letI := ieee sin cos pow
    let w := fixedVertex A s v
    w.z = v.z ∧ ∃ angle, (w.x, w.y) = circlePoint angle s.baseRadius 0 0 ∨
      (w.x, w.y) = circlePoint angle s.endRadius 0 s.length := by
  let _ := ieee sin cos pow
  obtain ⟨he, hz⟩ := endPoints_cases hv
  refine fixedVertex_on A s ?_
  rw [List.any_eq_true]
  rcases he with he | he
  · obtain ⟨k, hk, h⟩ := List.mem_iff_getElem.mp he
    have hk' : k < 13 := by simpa [vertsBase] using hk
    have hl : k < (vertsBase.zip vertsTip).length := by simp [vertsBase, vertsTip]; omega
    refine ⟨_, List.getElem_mem hl, ?_⟩
    rw [matchesEnd_point sin cos pow (i := k) (p := ⟨v.x, v.y⟩) (k := k)
      (by rw [List.getElem?_append_left hk, List.getElem?_eq_getElem hk, h]) rfl hz (List.getElem?_eq_getElem hl)]
    simp
  · obtain ⟨k, hk, h⟩ := List.mem_iff_getElem.mp he
    have hk' : k < 13 := by simpa [vertsTip] using hk
    have hl : k < (vertsBase.zip vertsTip).length := by simp [vertsBase, vertsTip]; omega
    refine ⟨_, List.getElem_mem hl, ?_⟩
    rw [matchesEnd_point sin cos pow (i := 13 + k) (p := ⟨v.x, v.y⟩) (k := k)
      (by
        rw [List.getElem?_append_right (by simp [vertsBase])]
        have : 13 + k - vertsBase.length = k := by simp [vertsBase]
        rw [this, List.getElem?_eq_getElem hk, h]) rfl hz (List.getElem?_eq_getElem hl)]
    simp

/-- **C83**: a vertex of the round base is put on the circle of the base, and one of the round tip on that of the tip, at
the angle it has in the table, moved away from the middle of its end. This needs that the place it is put at is not,
within the tolerance of the comparisons, one of the points of the table, as can only be for a flipper of about the size
of the table, which is less than one unit long. -/
theorem C83_own_end (A : ItemFns) (s : BatShape) (v : Vertex) (hv : v ∈ meshTables.flipperBase.vertices) :
    letI := ieee sin cos pow
    let base := applyFix A ⟨0, 0⟩ (Arith.mul (F32.neg fPi) fHalf) s.baseRadius ⟨0, 0⟩ s.scale v
    let tip := applyFix A ⟨0, 0x3f494c34⟩ (Arith.mul fPi fHalf) s.endRadius ⟨0, s.length⟩ s.scale v
    ((⟨v.x, v.y⟩ : Vec2) ∈ vertsBase → (∀ e ∈ vertsBase.zip vertsTip, matchesEnd base e = false) →
      fixedVertex A s v = base) ∧
    ((⟨v.x, v.y⟩ : Vec2) ∈ vertsTip → (∀ e ∈ vertsBase.zip vertsTip, matchesEnd tip e = false) →
      fixedVertex A s v = tip) := by
  let _ := ieee sin cos pow
  obtain ⟨-, hz⟩ := endPoints_cases hv
  have no : ∀ (w : Vertex) (e : Vec2 × Vec2), matchesEnd w e = false →
      vertexMatches w e.1.x e.1.y fBatBottom = false ∧ vertexMatches w e.2.x e.2.y fBatBottom = false ∧
        vertexMatches w e.1.x e.1.y fBatTop = false ∧ vertexMatches w e.2.x e.2.y fBatTop = false := by
    intro w e h
    simp only [matchesEnd, Bool.or_eq_false_iff] at h
    exact ⟨h.1.1.1, h.1.1.2, h.1.2, h.2⟩
  constructor
  · intro he hoff
    obtain ⟨k, hk, h⟩ := List.mem_iff_getElem.mp he
    have hk' : k < 13 := by simpa [vertsBase] using hk
    have hl : k < (vertsBase.zip vertsTip).length := by simp [vertsBase, vertsTip]; omega
    have hp : (vertsBase ++ vertsTip)[k]? = some ⟨v.x, v.y⟩ := by
      rw [List.getElem?_append_left hk, List.getElem?_eq_getElem hk, h]
    have hg := List.getElem?_eq_getElem hl
    refine fold_at sin cos pow hg ?_ ?_ hoff
    · intro j d hj hd
      obtain ⟨hj', -, -⟩ := zip_get hd
      rw [matchesEnd_point sin cos pow hp rfl hz hd]
      simp only [decide_eq_false_iff_not]
      omega
    · generalize (vertsBase.zip vertsTip)[k] = e at *
      obtain ⟨-, h1, h2⟩ := zip_get hg
      obtain ⟨-, n2, n3, n4⟩ := no _ e (hoff e (List.mem_of_getElem? hg))
      have m1 := matches_point sin cos pow hp rfl hz h1 (Or.inl rfl)
      have m2 := matches_point sin cos pow hp rfl hz h2 (Or.inl rfl)
      have m3 := matches_point sin cos pow hp rfl hz h1 (Or.inr rfl)
      unfold fixVertex
      dsimp only
      rcases hz with hz | hz
      · rw [m1]
        simp only [hz, and_self, decide_true, if_true]
        rw [n2]
        simp only [Bool.false_eq_true, if_false]
        rw [n3]
        simp only [Bool.false_eq_true, if_false]
        rw [n4]
        simp only [Bool.false_eq_true, if_false]
      · rw [m1]
        simp only [hz, show fBatTop ≠ fBatBottom by decide, and_false, decide_false, Bool.false_eq_true, if_false]
        rw [m2]
        simp only [hz, show fBatTop ≠ fBatBottom by decide, and_false, decide_false, Bool.false_eq_true, if_false]
        rw [m3]
        simp only [hz, and_self, decide_true, if_true]
        rw [n4]
        simp only [Bool.false_eq_true, if_false]
  · intro he hoff
    obtain ⟨k, hk, h⟩ := List.mem_iff_getElem.mp he
    have hk' : k < 13 := by simpa [vertsTip] using hk
    have hl : k < (vertsBase.zip vertsTip).length := by simp [vertsBase, vertsTip]; omega
    have hp : (vertsBase ++ vertsTip)[13 + k]? = some ⟨v.x, v.y⟩ := by
      rw [List.getElem?_append_right (by simp [vertsBase])]
      have : 13 + k - vertsBase.length = k := by simp [vertsBase]
      rw [this, List.getElem?_eq_getElem hk, h]
    have hg := List.getElem?_eq_getElem hl
    refine fold_at sin cos pow hg ?_ ?_ hoff
    · intro j d hj hd
      obtain ⟨hj', -, -⟩ := zip_get hd
      rw [matchesEnd_point sin cos pow hp rfl hz hd]
      simp only [decide_eq_false_iff_not]
      omega
    · generalize (vertsBase.zip vertsTip)[k] = e at *
      obtain ⟨-, h1, h2⟩ := zip_get hg
      obtain ⟨-, n2, n3, n4⟩ := no _ e (hoff e (List.mem_of_getElem? hg))
      have m1 := matches_point sin cos pow hp rfl hz h1 (Or.inl rfl)
      have m2 := matches_point sin cos pow hp rfl hz h2 (Or.inl rfl)
      have m3 := matches_point sin cos pow hp rfl hz h1 (Or.inr rfl)
      have m4 := matches_point sin cos pow hp rfl hz h2 (Or.inr rfl)
      have hne : ¬ 13 + k = k := by omega
      unfold fixVertex
      dsimp only
      rw [m1]
      simp only [hne, false_and, decide_false, Bool.false_eq_true, if_false]
      rw [m2]
      rcases hz with hz | hz
      · simp only [hz, and_self, decide_true, if_true]
        rw [n3]
        simp only [Bool.false_eq_true, if_false]
        rw [n4]
        simp only [Bool.false_eq_true, if_false]
      · simp only [hz, show fBatTop ≠ fBatBottom by decide, and_false, decide_false, Bool.false_eq_true, if_false]
        rw [m3]
        simp only [hne, false_and, decide_false, Bool.false_eq_true, if_false]
        rw [m4]
        simp only [hz, and_self, decide_true, if_true]

end

/-! ### With exact numbers -/

section
open Lean.Grind
variable {α : Type} [Lean.Grind.Field α] {sin cos radians : α → α}

/-- **C83**, with exact numbers: a point of the bat is given half a turn and turned to the start angle, stretched upwards
by the height, and moved up; a normal is turned in the same way. -/
theorem C83_points (half start height lift : α) (p : V3 α) :
    letI := exactOps sin cos radians
    let turn (a : α) := turnZ (cos (radians a)) (sin (radians a))
    flipperPoint half start height lift p = move ⟨0, 0, lift⟩ (stretch ⟨1, 1, height⟩ (turn start (turn half p))) ∧
      flipperNormal half start p = turn start (turn half p) := by
  constructor
  · unfold flipperPoint
    rw [mat3_rotateZ]
    simp only [turnedXy, exact_add, exact_sub, exact_mul, exact_sin, exact_cos, exact_radians, turnZ, stretch, move,
      V3.mk.injEq]
    refine ⟨?_, ?_, ?_⟩ <;> grind
  · unfold flipperNormal
    rw [mat3_rotateZ]
    simp only [turnedXy, exact_add, exact_sub, exact_mul, exact_sin, exact_cos, exact_radians, turnZ, V3.mk.injEq]
    refine ⟨?_, ?_, ?_⟩ <;> grind

/-- **C83**, with exact numbers: seen from above the bat keeps its distances when it is turned, and its normals keep
their lengths and the angles between them. -/
theorem C83_rigid (half start height lift : α)
    (h : ∀ a, cos (radians a) * cos (radians a) + sin (radians a) * sin (radians a) = 1) :
    letI := exactOps sin cos radians
    (∀ p q, sqDistXy (flipperPoint half start height lift p) (flipperPoint half start height lift q) = sqDistXy p q) ∧
      Turning (flipperNormal half start) := by
  have hp := C83_points (sin := sin) (cos := cos) (radians := radians) half start height lift
  constructor
  · intro p q
    rw [(hp p).1, (hp q).1]
    simp only [sqDistXy, stretch, move, turnZ]
    have h1 := h half
    have h2 := h start
    generalize cos (radians half) = c1 at *
    generalize sin (radians half) = s1 at *
    generalize cos (radians start) = c2 at *
    generalize sin (radians start) = s2 at *
    have e : ∀ c s x y : α, c * c + s * s = 1 →
        (c * x - s * y) * (c * x - s * y) + (s * x + c * y) * (s * x + c * y) = x * x + y * y := by
      intro c s x y h; grind
    have e1 := e c1 s1 (p.x - q.x) (p.y - q.y) h1
    have e2 := e c2 s2 (c1 * (p.x - q.x) - s1 * (p.y - q.y)) (s1 * (p.x - q.x) + c1 * (p.y - q.y)) h2
    rw [← e1, ← e2]
    grind
  · intro n m
    rw [(hp n).2, (hp m).2, turnZ_dot (h start), turnZ_dot (h half)]

/-- **C83**, with exact numbers: the points at all angles of a circle have its radius as their distance from its centre. -/
theorem C83_circle (angle radius cx cy : α) (h : cos angle * cos angle + sin angle * sin angle = 1) :
    letI := exactOps sin cos radians
    let p := circlePoint angle radius cx cy
    (p.1 - cx) * (p.1 - cx) + (p.2 - cy) * (p.2 - cy) = radius * radius := by
  simp only [circlePoint, exact_add, exact_mul, exact_sin, exact_cos]
  grind

end

/-- **C83**, with real numbers: the two sides of a bat are tangents of both its circles. The side goes from the last
point of the base on that side, which is in the table at the angle `-π` or `0` seen from the middle of the base, to the
last point of the tip, at `π` or `0` seen from the middle of the tip: it is at right angles to the radius at both its ends,
whatever the radii (the difference of which is not more than the length) and the thickness of the rubber. -/
theorem C83_tangent (R r L thickness : ℝ) (hL : 0 < L) (h : |R - r| ≤ L) (side : ℝ × ℝ)
    (hs : side = (-Real.pi, Real.pi) ∨ side = (0, 0)) :
    letI := exactOps Real.sin Real.cos fun a => a * (Real.pi / 180)
    let scale := Real.arcsin ((R - r) / L) / (Real.pi * (1 / 2))
    let p := circlePoint (fixedAngle (-Real.pi * (1 / 2)) scale (-1) side.1) (R - thickness) 0 0
    let q := circlePoint (fixedAngle (Real.pi * (1 / 2)) scale 1 side.2) (r - thickness) 0 L
    (q.1 - p.1) * (p.1 - 0) + (q.2 - p.2) * (p.2 - 0) = 0 ∧ (q.1 - p.1) * (q.1 - 0) + (q.2 - p.2) * (q.2 - L) = 0 := by
  have hpi := Real.pi_ne_zero
  have hk : Real.sin (Real.arcsin ((R - r) / L)) = (R - r) / L := by
    have := abs_le.mp h
    refine Real.sin_arcsin ?_ ?_
    · rw [le_div_iff₀ hL]; linarith
    · rw [div_le_iff₀ hL]; linarith
  have hk' : L * Real.sin (Real.arcsin ((R - r) / L)) = R - r := by
    rw [hk]; field_simp
  have hu := Real.cos_sq_add_sin_sq (Real.arcsin ((R - r) / L))
  generalize Real.arcsin ((R - r) / L) = t at *
  dsimp only
  have e1 : @fixedAngle ℝ (exactOps Real.sin Real.cos fun a => a * (Real.pi / 180)) (-Real.pi * (1 / 2))
      (t / (Real.pi * (1 / 2))) (-1) (-Real.pi) = -(t + Real.pi) := by
    simp only [fixedAngle, exact_sub, exact_mul]; field_simp; ring
  have e2 : @fixedAngle ℝ (exactOps Real.sin Real.cos fun a => a * (Real.pi / 180)) (Real.pi * (1 / 2))
      (t / (Real.pi * (1 / 2))) 1 Real.pi = Real.pi - t := by
    simp only [fixedAngle, exact_sub, exact_mul]; field_simp; ring
  have e3 : @fixedAngle ℝ (exactOps Real.sin Real.cos fun a => a * (Real.pi / 180)) (-Real.pi * (1 / 2))
      (t / (Real.pi * (1 / 2))) (-1) 0 = t := by
    simp only [fixedAngle, exact_sub, exact_mul]; field_simp; ring
  have e4 : @fixedAngle ℝ (exactOps Real.sin Real.cos fun a => a * (Real.pi / 180)) (Real.pi * (1 / 2))
      (t / (Real.pi * (1 / 2))) 1 0 = t := by
    simp only [fixedAngle, exact_sub, exact_mul]; field_simp; ring
  rcases hs with rfl | rfl
  · dsimp only
    rw [e1, e2]
    simp only [circlePoint, exact_add, exact_mul, exact_sin, exact_cos, Real.cos_neg, Real.sin_neg, Real.cos_add_pi,
      Real.sin_add_pi, Real.cos_pi_sub, Real.sin_pi_sub]
    constructor
    · linear_combination (-(R - thickness)) * (R - r) * hu + (R - thickness) * hk'
    · linear_combination (-(r - thickness)) * (R - r) * hu + (r - thickness) * hk'
  · dsimp only
    rw [e3, e4]
    simp only [circlePoint, exact_add, exact_mul, exact_sin, exact_cos]
    constructor
    · linear_combination (-(R - thickness)) * (R - r) * hu + (R - thickness) * hk'
    · linear_combination (-(r - thickness)) * (R - r) * hu + (r - thickness) * hk'

/-! ### What is not so -/

/-- **C83**, a finding: the normals do not depend on the radii, although the sides do (`C83_tangent`): two flippers with
the same start angle have the same normals. The normals the code finds for the round ends are not used. -/
theorem C83_normals_ignore_radii [Arith] (A : ItemFns) (T : MeshTables) (f g : Flipper) (h : F32)
    (hs : f.start_angle = g.start_angle) {c d : Vec3} {m n : RawMesh} {r q : Option RawMesh}
    (hf : buildFlipperMeshes A T f h = some (c, m, r)) (hg : buildFlipperMeshes A T g h = some (d, n, q)) :
    (m.vertices.map fun v => (v.nx, v.ny, v.nz)) = n.vertices.map fun v => (v.nx, v.ny, v.nz) := by
  unfold buildFlipperMeshes at hf hg
  split at hf
  · cases hf
  split at hg
  · cases hg
  cases hf
  cases hg
  simp only [List.map_map]
  refine List.map_congr_left ?_
  intro v _
  simp only [Function.comp, flipperVertex, hs]

/-! ### Concrete cases -/

/-- the condition of `C83_tangent` is met by the radii and the length of an ordinary flipper -/
example : (0 : ℝ) < 130 ∧ |(21.5 : ℝ) - 13| ≤ 130 := by
  refine ⟨by norm_num, ?_⟩
  rw [abs_le]
  constructor <;> norm_num

/-- the condition of `C83_rigid` and `C83_circle` is met by the real sine and cosine -/
example (a : ℝ) : Real.cos a * Real.cos a + Real.sin a * Real.sin a = 1 := by
  rw [← sq, ← sq]; exact Real.cos_sq_add_sin_sq a

section
attribute [local instance] ieeeExact

/-- functions to show that the conditions can be met -/
def flipperFns : ItemFns where
  asin x := x
  atan2 _ _ := 0
  parse32 _ := none

/-- a flipper with radii 20 and 10 and length 130 -/
def flipperSample : Flipper :=
  { Flipper.default with
    is_visible := true, base_radius := 0x41a00000, end_radius := fTen, flipper_radius_max := 0x43020000,
    rubber_thickness := some fTwo }

/-- a vertex of the base and one of the tip meet the conditions of `C83_own_end` -/
example : (meshTables.flipperBase.vertices.take 14).all (fun v =>
    let s := flipperSample.bat flipperFns
    let base := applyFix flipperFns ⟨0, 0⟩ (Arith.mul (F32.neg fPi) fHalf) s.baseRadius ⟨0, 0⟩ s.scale v
    let tip := applyFix flipperFns ⟨0, 0x3f494c34⟩ (Arith.mul fPi fHalf) s.endRadius ⟨0, s.length⟩ s.scale v
    (vertsBase.zip vertsTip).all (fun e => !matchesEnd base e && !matchesEnd tip e)) = true ∧
    (meshTables.flipperBase.vertices.any fun v => vertsBase.contains ⟨v.x, v.y⟩) = true ∧
    (meshTables.flipperBase.vertices.take 14).any (fun v => vertsTip.contains ⟨v.x, v.y⟩) = true := by
  decide +kernel

/-- the table of the bat meets the condition of `C83_one_mesh` -/
example : ∀ t ∈ meshTables.flipperBase.tris, ∀ i ∈ [t.1, t.2.1, t.2.2], i < meshTables.flipperBase.vertices.length := by
  decide +kernel

/-- and the flipper as one mesh has 208 vertices and 200 triangles -/
example : (buildFlipperMesh flipperFns meshTables flipperSample 0).map
    (fun m => (m.vertices.length, m.solid.length)) = some (208, 200) := by
  decide +kernel

/-- the flipper has a bat of 104 vertices and 100 triangles, and a rubber -/
example : (buildFlipperMeshes flipperFns meshTables flipperSample 0).map
    (fun m => (m.2.1.vertices.length, m.2.1.faces.length, m.2.2.isSome)) = some (104, 100, true) := by
  decide +kernel

end
end Vpin
