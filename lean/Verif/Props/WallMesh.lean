import Verif.Lemmas.WallMesh
import Verif.Lemmas.Extrude
import Verif.Props.Polygon
import Verif.Props.Curve
import Verif.Lemmas.Mesh
/-
C62: the mesh of a wall; C63: the texture coordinates of its sides.

`points` are the points of the curve through the drag points of the wall (C61).
-/
namespace Vpin
open Arith

section
variable [Arith]

/-- The sides of a wall over the outline `points`: over every edge two triangles with four vertices of
their own (`SideOver`), with the given texture coordinates at the points. -/
structure WallSides (wall : Wall) (points : List RenderVertex2D) (coords : Option (List F32))
    (m : GenMesh) : Prop where
  vertex_count : m.vertices.length = 4 * points.length
  face_count : m.tris.length = 2 * points.length
  faces : ∀ i < points.length, m.tris[2 * i]? = some (4 * i, 4 * i + 1, 4 * i + 2) ∧
    m.tris[2 * i + 1]? = some (4 * i, 4 * i + 2, 4 * i + 3)
  over : ∀ (i : Nat) o p q r, points[(i + points.length - 1) % points.length]? = some o →
    points[i]? = some p → points[(i + 1) % points.length]? = some q →
    points[(i + 2) % points.length]? = some r →
    ∃ v0 v1 v2 v3, m.vertices[4 * i]? = some v0 ∧ m.vertices[4 * i + 1]? = some v1 ∧
      m.vertices[4 * i + 2]? = some v2 ∧ m.vertices[4 * i + 3]? = some v3 ∧
      SideOver wall.height_bottom wall.height_top o p q r
        (coords.bind fun cs => cs[i]?.bind fun a =>
          (cs[(i + 1) % points.length]?.map fun b => (a, b))) v0 v1 v2 v3

/-- the image stretched over the outline: from its least to its greatest coordinates -/
def ownTexture (points : List RenderVertex2D) (p : RenderVertex2D) : F32 × F32 :=
  let share (f : RenderVertex2D → F32) : F32 :=
    let least := (points.map f).foldl fmin fInf
    let most := (points.map f).foldl fmax fNegInf
    (f p -ᶠ least) *ᶠ (if most ==ᶠ least then 0 else f32One /ᶠ (most -ᶠ least))
  (share (·.x), share (·.y))

/-- the image stretched over the table -/
def tableTexture (dims : TableDims) (p : RenderVertex2D) : F32 × F32 :=
  let share (least most x : F32) : F32 :=
    (x -ᶠ least) *ᶠ (if (most -ᶠ least) ==ᶠ 0 then 0 else f32One /ᶠ (most -ᶠ least))
  (share dims.left dims.right p.x, share dims.top dims.bottom p.y)

theorem boundsXy_eq (points : List RenderVertex2D) :
    boundsXy points = ((points.map (·.x)).foldl fmin fInf, (points.map (·.x)).foldl fmax fNegInf,
      (points.map (·.y)).foldl fmin fInf, (points.map (·.y)).foldl fmax fNegInf) := by
  unfold boundsXy
  have : ∀ (l : List RenderVertex2D) (a b c d : F32),
      l.foldl (fun (x : F32 × F32 × F32 × F32) p => match x with
        | (a, b, c, d) => (fmin a p.x, fmax b p.x, fmin c p.y, fmax d p.y)) (a, b, c, d) =
      ((l.map (·.x)).foldl fmin a, (l.map (·.x)).foldl fmax b, (l.map (·.y)).foldl fmin c,
        (l.map (·.y)).foldl fmax d) := by
    intro l
    induction l with
    | nil => intro a b c d; rfl
    | cons p l ih => intro a b c d; exact ih _ _ _ _
  exact this points _ _ _ _

/-- The top of a wall: one vertex per point of the outline, at the height of the top with the normal
pointing up and the given texture coordinates, and the triangles of the outline (C60). -/
structure WallLid (wall : Wall) (points : List RenderVertex2D) (texture : RenderVertex2D → F32 × F32) (m : GenMesh) :
    Prop where
  vertex_count : m.vertices.length = points.length
  faces : triangulatePolygon (points.map RenderVertex2D.xy) = .ok m.tris
  places : ∀ (i : Nat) p, points[i]? = some p → ∃ v, m.vertices[i]? = some v ∧
    v.place = (p.x, p.y, wall.height_top) ∧ v.nx = 0 ∧ v.ny = 0 ∧ v.nz = f32One ∧ (v.tu, v.tv) = texture p

theorem side_faces_get (n : Nat) : ∀ i < n,
    ((List.range n).flatMap fun i =>
      [(i * 4, i * 4 + 1, i * 4 + 2), (i * 4, i * 4 + 2, i * 4 + 3)])[2 * i]? =
        some (4 * i, 4 * i + 1, 4 * i + 2) ∧
    ((List.range n).flatMap fun i =>
      [(i * 4, i * 4 + 1, i * 4 + 2), (i * 4, i * 4 + 2, i * 4 + 3)])[2 * i + 1]? =
        some (4 * i, 4 * i + 2, 4 * i + 3) := by
  intro i hi
  rw [List.flatMap_def]
  have h2 : ∀ q ∈ (List.range n).map fun i =>
      [(i * 4, i * 4 + 1, i * 4 + 2), (i * 4, i * 4 + 2, i * 4 + 3)], q.length = 2 := by
    intro q hq; obtain ⟨j, -, rfl⟩ := List.mem_map.1 hq; rfl
  have a := flatten_get h2 i 0 (by omega)
  have b := flatten_get h2 i 1 (by omega)
  rw [List.getElem?_map, List.getElem?_range hi] at a b
  rw [Nat.mul_comm 4 i]
  exact ⟨a, b⟩

theorem side_faces_length (n : Nat) : ((List.range n).flatMap fun i =>
      [(i * 4, i * 4 + 1, i * 4 + 2), (i * 4, i * 4 + 2, i * 4 + 3)]).length = 2 * n := by
  rw [List.flatMap_def, flatten_length (c := 2)]
  · simp
  · intro q hq; obtain ⟨j, -, rfl⟩ := List.mem_map.1 hq; rfl

/-- **C62**, sides: computing them never panics. -/
theorem C62_sides (wall : Wall) (points : List RenderVertex2D) (coords : Option (List F32))
    (hc : ∀ cs, coords = some cs → cs.length = points.length) :
    ∃ m, buildSideMesh wall points coords = .ok m ∧ WallSides wall points coords m := by
  obtain ⟨m, h, hl, ht, hs⟩ := buildSideMesh_eq wall points coords hc
  refine ⟨m, h, hl, ?_, ?_, hs⟩
  · rw [ht, side_faces_length]
  · intro i hi; rw [ht]; exact side_faces_get _ i hi

theorem top_ok {points : List RenderVertex2D} :
    ∃ ts, triangulatePolygon (points.map RenderVertex2D.xy) = .ok ts := by
  by_cases h3 : 3 ≤ points.length
  · obtain ⟨ts, h, -⟩ := C60_wall_top (points.map RenderVertex2D.xy) (by simpa using h3)
    exact ⟨ts, h⟩
  · exact ⟨[], C60_wall_top_small _ (by simp; omega)⟩

/-- **C62**, top, with texture coordinates relative to the wall or to the table; never panics -/
theorem C62_top (wall : Wall) (points : List RenderVertex2D) (dims : TableDims) :
    (∃ m, buildTopMeshItemSpace points wall = .ok m ∧ WallLid wall points (ownTexture points) m) ∧
    (∃ m, buildTopMesh points wall dims = .ok m ∧ WallLid wall points (tableTexture dims) m) := by
  obtain ⟨ts, hts⟩ := top_ok (points := points)
  constructor
  · unfold buildTopMeshItemSpace
    rw [boundsXy_eq, show (points.map fun v => (v.x, v.y)) = points.map RenderVertex2D.xy from rfl, hts]
    refine ⟨_, rfl, by simp, hts, ?_⟩
    intro i p hp
    simp only [List.getElem?_map, hp, Option.map_some]
    exact ⟨_, rfl, rfl, rfl, rfl, rfl, rfl⟩
  · unfold buildTopMesh
    rw [show (points.map fun v => (v.x, v.y)) = points.map RenderVertex2D.xy from rfl, hts]
    refine ⟨_, rfl, by simp, hts, ?_⟩
    intro i p hp
    simp only [List.getElem?_map, hp, Option.map_some]
    exact ⟨_, rfl, rfl, rfl, rfl, rfl, rfl⟩

/-- how sides and top make up the mesh of a wall: only what is visible, or both if nothing is -/
def WallParts (wall : Wall) (sides lid m : GenMesh) : Prop :=
  if wall.is_top_bottom_visible = wall.is_side_visible then
    m.vertices = sides.vertices ++ lid.vertices ∧
      m.tris = sides.tris ++ lid.tris.map (Tri.map (· + sides.vertices.length))
  else if wall.is_side_visible then m = sides
  else m = lid

/-- **C62**. Building the mesh of a wall never panics. It gives nothing exactly if the outline has fewer
than three points or gets no triangles; else it consists of the sides and the top. -/
theorem C62_wall {fuel wall points}
    (hp : getRgVertex2D fuel wall.drag_points fFour true = .ok points) :
    ∃ r, buildWallMesh fuel wall = .ok r ∧
      (r = none ↔ points.length < 3 ∨ triangulatePolygon (points.map RenderVertex2D.xy) = .ok []) ∧
      ∀ m, r = some m → ∃ coords sides lid,
        (coords = none ↔ wall.side_image = []) ∧
        (∀ cs, coords = some cs → sideTextureCoords points wall.drag_points = .ok cs) ∧
        WallSides wall points coords sides ∧ WallLid wall points (ownTexture points) lid ∧ WallParts wall sides lid m := by
  unfold buildWallMesh
  rw [hp]
  simp only [bind, Except.bind]
  by_cases h3 : points.length < 3
  · rw [if_pos h3]
    exact ⟨none, rfl, by simp [h3], by simp⟩
  · rw [if_neg h3]
    obtain ⟨cs, hcs, hcl, -⟩ := sideTextureCoords_eq points wall.drag_points (by omega)
    obtain ⟨coords, hce, hcn, hcsome⟩ : ∃ coords,
        (if wall.side_image.isEmpty then (.ok none : Res (Option (List F32)))
          else Except.bind (sideTextureCoords points wall.drag_points) fun a => pure (some a)) = .ok coords ∧
        (coords = none ↔ wall.side_image = []) ∧ (∀ cs', coords = some cs' → cs' = cs) := by
      rw [hcs]
      cases hsi : wall.side_image with
      | nil => exact ⟨none, rfl, by simp, by simp⟩
      | cons a l => exact ⟨some cs, rfl, by simp, by simp⟩
    obtain ⟨sides, hs, hsides⟩ := C62_sides wall points coords (by
      intro cs' h; rw [hcsome cs' h]; exact hcl)
    obtain ⟨⟨lid, hl, hlid⟩, -⟩ := C62_top wall points ⟨0, 0, 0, 0⟩
    simp only [Except.bind] at hce
    rw [hce]
    dsimp only
    rw [hs]
    dsimp only
    rw [hl]
    dsimp only
    have hcs' : ∀ cs', coords = some cs' → sideTextureCoords points wall.drag_points = .ok cs' := by
      intro cs' h; rw [hcsome cs' h]; exact hcs
    cases ht : lid.tris with
    | nil =>
      refine ⟨none, rfl, ?_, by simp⟩
      have := hlid.faces
      rw [ht] at this
      simp [this]
    | cons t ts =>
      have hne : ¬ (points.length < 3 ∨
          triangulatePolygon (points.map RenderVertex2D.xy) = .ok []) := by
        rintro (h | h)
        · exact h3 h
        · have := hlid.faces
          rw [h, ht] at this
          cases this
      simp only [List.isEmpty_cons, Bool.false_eq_true, if_false]
      have hjoin : ∀ m, m = sides.join lid → m.vertices = sides.vertices ++ lid.vertices ∧
          m.tris = sides.tris ++ lid.tris.map (Tri.map (· + sides.vertices.length)) := by
        rintro _ rfl; exact ⟨rfl, rfl⟩
      cases h1 : wall.is_top_bottom_visible <;> cases h2 : wall.is_side_visible <;>
        (refine ⟨_, rfl, by simp [hne], ?_⟩
         intro m hm
         cases hm
         refine ⟨coords, sides, lid, hcn, hcs', hsides, hlid, ?_⟩
         unfold WallParts
         rw [h1, h2]
         simp [GenMesh.join, Tri.map])
      all_goals rfl

/-- **C62**, for the glTF export: top and sides as separate meshes; the sides are there whenever the
outline has three points, the top whenever it gets a triangle. -/
theorem C62_wall_meshes {fuel wall dims points}
    (hp : getRgVertex2D fuel wall.drag_points fFour true = .ok points) :
    ∃ r, buildWallMeshes fuel wall dims = .ok r ∧ (r = none ↔ points.length < 3) ∧
      ∀ m, r = some m → ∃ coords sides, m.side = some sides ∧ WallSides wall points coords sides ∧
        (coords = none ↔ wall.side_image = [] ∧ wall.image = []) ∧
        (∀ cs, coords = some cs → sideTextureCoords points wall.drag_points = .ok cs) ∧
        (m.top = none → triangulatePolygon (points.map RenderVertex2D.xy) = .ok []) ∧
        (∀ lid, m.top = some lid → WallLid wall points (tableTexture dims) lid ∧ lid.tris ≠ []) := by
  unfold buildWallMeshes
  rw [hp]
  simp only [bind, Except.bind]
  by_cases h3 : points.length < 3
  · rw [if_pos h3]
    exact ⟨none, rfl, by simp [h3], by simp⟩
  · rw [if_neg h3]
    obtain ⟨cs, hcs, hcl, -⟩ := sideTextureCoords_eq points wall.drag_points (by omega)
    obtain ⟨coords, hce, hcn, hcsome⟩ : ∃ coords,
        (if wall.side_image.isEmpty && wall.image.isEmpty then (.ok none : Res (Option (List F32)))
          else Except.bind (sideTextureCoords points wall.drag_points) fun a => pure (some a)) = .ok coords ∧
        (coords = none ↔ wall.side_image = [] ∧ wall.image = []) ∧
        (∀ cs', coords = some cs' → cs' = cs) := by
      rw [hcs]
      cases hsi : wall.side_image with
      | nil =>
        cases hi : wall.image with
        | nil => exact ⟨none, rfl, by simp, by simp⟩
        | cons a l => exact ⟨some cs, rfl, by simp, by simp⟩
      | cons a l => exact ⟨some cs, rfl, by simp, by simp⟩
    obtain ⟨sides, hs, hsides⟩ := C62_sides wall points coords (by
      intro cs' h; rw [hcsome cs' h]; exact hcl)
    obtain ⟨-, ⟨lid, hl, hlid⟩⟩ := C62_top wall points dims
    simp only [Except.bind] at hce
    rw [hce]
    dsimp only
    rw [hs]
    dsimp only
    rw [hl]
    dsimp only
    have hsne : sides.vertices.isEmpty = false := by
      cases hv : sides.vertices with
      | nil => have := hsides.vertex_count; rw [hv] at this; simp at this; omega
      | cons _ _ => rfl
    rw [hsne]
    refine ⟨_, rfl, by simp; omega, ?_⟩
    intro m hm
    cases hm
    refine ⟨coords, sides, rfl, hsides, hcn, ?_, ?_, ?_⟩
    · intro cs' h; rw [hcsome cs' h]; exact hcs
    · intro h
      cases ht : lid.tris with
      | nil => rw [← ht]; exact hlid.faces
      | cons _ _ => rw [ht] at h; cases h
    · intro l h
      cases ht : lid.tris with
      | nil => rw [ht] at h; cases h
      | cons _ _ =>
        rw [ht] at h
        cases h
        exact ⟨hlid, by simp [ht]⟩

omit [Arith] in
/-- **C62**: the bytes that go with the vertices of a generated mesh are those a reader takes for these vertices, and its
faces are the triangles. -/
theorem C62_encoded (m : GenMesh) :
    rawVertices m.vertices.length (m.mesh.vertices.flatMap (·.encoded)) = .ok m.mesh.vertices ∧
      m.mesh.vertices.map (·.vertex) = m.vertices ∧
      m.mesh.faces = m.tris.map fun t => ⟨(t.1 : Int), (t.2.1 : Int), (t.2.2 : Int)⟩ := by
  have e : ∀ v : Vertex, v.toVpxBytes = v.bytes := fun v => rfl
  refine ⟨?_, ?_, rfl⟩
  · have := rawVertices_bytes (m.mesh.vertices) [] (by
      intro w hw
      obtain ⟨v, -, rfl⟩ := List.mem_map.1 hw
      exact e v)
    rw [List.append_nil] at this
    rw [← this]
    simp [GenMesh.mesh]
  · simp [GenMesh.mesh, Function.comp_def]

/-- **C62**, indices. Every face uses three different vertices of the mesh. -/
theorem C62_indices {fuel wall m} (h : buildWallMesh fuel wall = .ok (some m)) :
    InRange m.vertices.length m.tris ∧ ∀ t ∈ m.tris, t.Proper := by
  obtain ⟨points, hp⟩ : ∃ points, getRgVertex2D fuel wall.drag_points fFour true = .ok points := by
    cases hp : getRgVertex2D fuel wall.drag_points fFour true with
    | ok p => exact ⟨p, rfl⟩
    | error e => unfold buildWallMesh at h; rw [hp] at h; cases h
  obtain ⟨r, hr, hnone, hparts⟩ := C62_wall hp
  rw [hr] at h
  cases h
  have h3 : 3 ≤ points.length := by
    by_cases h : points.length < 3
    · have := hnone.2 (Or.inl h); cases this
    · omega
  obtain ⟨coords, sides, lid, -, -, hs, hl, hw⟩ := hparts m rfl
  have hsr : InRange sides.vertices.length sides.tris ∧ ∀ t ∈ sides.tris, t.Proper := by
    have : ∀ t ∈ sides.tris, ∃ i < points.length,
        t = (4 * i, 4 * i + 1, 4 * i + 2) ∨ t = (4 * i, 4 * i + 2, 4 * i + 3) := by
      intro t ht
      obtain ⟨k, hk, rfl⟩ := List.getElem_of_mem ht
      have hk' := hk
      rw [hs.face_count] at hk'
      refine ⟨k / 2, by omega, ?_⟩
      obtain ⟨f0, f1⟩ := hs.faces (k / 2) (by omega)
      rcases Nat.mod_two_eq_zero_or_one k with h | h
      · left
        rw [show 2 * (k / 2) = k by omega, List.getElem?_eq_getElem hk] at f0
        exact Option.some.inj f0
      · right
        rw [show 2 * (k / 2) + 1 = k by omega, List.getElem?_eq_getElem hk] at f1
        exact Option.some.inj f1
    rw [hs.vertex_count]
    constructor
    · intro t ht
      obtain ⟨i, hi, rfl | rfl⟩ := this t ht <;> dsimp only <;> omega
    · intro t ht
      obtain ⟨i, hi, rfl | rfl⟩ := this t ht <;> unfold Tri.Proper <;> dsimp only <;> omega
  have hlr : InRange lid.vertices.length lid.tris ∧ ∀ t ∈ lid.tris, t.Proper := by
    obtain ⟨ts, hts, -, hr, hpr, -⟩ := C60_wall_top (points.map RenderVertex2D.xy) (by simpa using h3)
    have := hl.faces
    rw [hts] at this
    cases this
    rw [hl.vertex_count]
    exact ⟨by simpa using hr, hpr⟩
  unfold WallParts at hw
  split at hw
  · obtain ⟨hv, ht⟩ := hw
    rw [hv, ht]
    constructor
    · intro t ht
      rw [List.length_append]
      rcases List.mem_append.1 ht with ht | ht
      · have := hsr.1 t ht; omega
      · obtain ⟨t, ht', rfl⟩ := List.mem_map.1 ht
        have := hlr.1 t ht'
        simp only [Tri.map]; omega
    · intro t ht
      rcases List.mem_append.1 ht with ht | ht
      · exact hsr.2 t ht
      · obtain ⟨t, ht', rfl⟩ := List.mem_map.1 ht
        have := hlr.2 t ht'
        simp only [Tri.map, Tri.Proper] at this ⊢; omega
  · split at hw
    · rw [hw]; exact hsr
    · rw [hw]; exact hlr

/-- names for the places of the vertices of a wall with `n` points: below `n` at the bottom -/
def wallLabel (n v : Nat) : Nat :=
  if v < 4 * n then
    match v % 4 with
    | 0 => v / 4
    | 1 => n + v / 4
    | 2 => n + (v / 4 + 1) % n
    | _ => (v / 4 + 1) % n
  else n + (v - 4 * n)

/-- **C62**, the surface. If sides and top are both in the mesh, all triangles of the top were found,
and the outline is not counterclockwise, then after identifying vertices at the same place (`label`) the
mesh is a consistently oriented surface that is open only at the bottom: its rim is the outline at the
height of the bottom. -/
theorem C62_surface {fuel wall points m}
    (hp : getRgVertex2D fuel wall.drag_points fFour true = .ok points)
    (h : buildWallMesh fuel wall = .ok (some m))
    (hboth : wall.is_top_bottom_visible = wall.is_side_visible)
    (hcw : Arith.lt 0 (signedArea (points.map RenderVertex2D.xy)) = false)
    (hall : m.tris.length = 2 * points.length + (points.length - 2)) :
    ∃ (label : Nat → Nat) (rim : List Nat), Welds label m.vertices ∧
      SurfaceWithRim (m.tris.map (Tri.map label)) rim ∧ rim.length = points.length ∧
      ∀ (k : Nat) p, points.reverse[k]? = some p → ∃ i v, rim[k]? = some (label i) ∧
        m.vertices[i]? = some v ∧ v.place = (p.x, p.y, wall.height_bottom) := by
  obtain ⟨r, hr, hnone, hparts⟩ := C62_wall hp
  rw [hr] at h
  cases h
  have h3 : 3 ≤ points.length := by
    by_cases h : points.length < 3
    · have := hnone.2 (Or.inl h); cases this
    · omega
  obtain ⟨coords, sides, lid, -, -, hs, hl, hw⟩ := hparts m rfl
  unfold WallParts at hw
  rw [if_pos hboth] at hw
  obtain ⟨hv, ht⟩ := hw
  -- the place of every vertex
  have hside : ∀ i < points.length, ∃ p q v0 v1 v2 v3, points[i]? = some p ∧
      points[(i + 1) % points.length]? = some q ∧ m.vertices[4 * i]? = some v0 ∧
      m.vertices[4 * i + 1]? = some v1 ∧ m.vertices[4 * i + 2]? = some v2 ∧
      m.vertices[4 * i + 3]? = some v3 ∧ v0.place = (p.x, p.y, wall.height_bottom) ∧
      v1.place = (p.x, p.y, wall.height_top) ∧ v2.place = (q.x, q.y, wall.height_top) ∧
      v3.place = (q.x, q.y, wall.height_bottom) := by
    intro i hi
    have hpos : 0 < points.length := by omega
    obtain ⟨v0, v1, v2, v3, a0, a1, a2, a3, hso⟩ := hs.over i _ _ _ _
      (List.getElem?_eq_getElem (Nat.mod_lt (i + points.length - 1) hpos))
      (List.getElem?_eq_getElem hi) (List.getElem?_eq_getElem (Nat.mod_lt (i + 1) hpos))
      (List.getElem?_eq_getElem (Nat.mod_lt (i + 2) hpos))
    have hlt := hs.vertex_count
    refine ⟨_, _, v0, v1, v2, v3, List.getElem?_eq_getElem hi,
      List.getElem?_eq_getElem (Nat.mod_lt (i + 1) hpos), ?_, ?_, ?_, ?_,
      hso.place0, hso.place1, hso.place2, hso.place3⟩ <;>
      (rw [hv, List.getElem?_append_left (by omega)]; assumption)
  have hlab : ∀ i < points.length, wallLabel points.length (4 * i) = i ∧
      wallLabel points.length (4 * i + 1) = points.length + i ∧
      wallLabel points.length (4 * i + 2) = points.length + (i + 1) % points.length ∧
      wallLabel points.length (4 * i + 3) = (i + 1) % points.length := by
    intro i hi
    unfold wallLabel
    rw [if_pos (by omega), if_pos (by omega), if_pos (by omega), if_pos (by omega),
      show 4 * i % 4 = 0 by omega, show (4 * i + 1) % 4 = 1 by omega,
      show (4 * i + 2) % 4 = 2 by omega, show (4 * i + 3) % 4 = 3 by omega,
      show 4 * i / 4 = i by omega, show (4 * i + 1) / 4 = i by omega,
      show (4 * i + 2) / 4 = i by omega, show (4 * i + 3) / 4 = i by omega]
    exact ⟨rfl, rfl, rfl, rfl⟩
  have hlabTop : ∀ i, wallLabel points.length (i + 4 * points.length) = points.length + i := by
    intro i; unfold wallLabel; rw [if_neg (by omega)]; omega
  -- the place that belongs to a label
  have hplace : ∀ (i : Nat) v, m.vertices[i]? = some v → ∃ k p, k < points.length ∧ points[k]? = some p ∧
      ((wallLabel points.length i = k ∧ v.place = (p.x, p.y, wall.height_bottom)) ∨
        (wallLabel points.length i = points.length + k ∧ v.place = (p.x, p.y, wall.height_top))) := by
    intro i v hiv
    by_cases hi : i < 4 * points.length
    · obtain ⟨p, q, v0, v1, v2, v3, hp, hq, a0, a1, a2, a3, b0, b1, b2, b3⟩ := hside (i / 4) (by omega)
      obtain ⟨l0, l1, l2, l3⟩ := hlab (i / 4) (by omega)
      have hq' := (List.getElem?_eq_some_iff.1 hq).1
      have hmod : i = 4 * (i / 4) ∨ i = 4 * (i / 4) + 1 ∨ i = 4 * (i / 4) + 2 ∨ i = 4 * (i / 4) + 3 := by
        omega
      rcases hmod with h | h | h | h
      · rw [← h] at a0 l0; rw [hiv] at a0; cases a0
        exact ⟨_, p, by omega, hp, Or.inl ⟨l0, b0⟩⟩
      · rw [← h] at a1 l1; rw [hiv] at a1; cases a1
        exact ⟨_, p, by omega, hp, Or.inr ⟨l1, b1⟩⟩
      · rw [← h] at a2 l2; rw [hiv] at a2; cases a2
        exact ⟨_, q, hq', hq, Or.inr ⟨l2, b2⟩⟩
      · rw [← h] at a3 l3; rw [hiv] at a3; cases a3
        exact ⟨_, q, hq', hq, Or.inl ⟨l3, b3⟩⟩
    · have hlt := (List.getElem?_eq_some_iff.1 hiv).1
      rw [hv, List.length_append, hs.vertex_count, hl.vertex_count] at hlt
      have hk : i - 4 * points.length < points.length := by omega
      obtain ⟨w, hw1, hw2, -⟩ := hl.places (i - 4 * points.length) _ (List.getElem?_eq_getElem hk)
      rw [hv, List.getElem?_append_right (by rw [hs.vertex_count]; omega), hs.vertex_count, hw1] at hiv
      cases hiv
      refine ⟨i - 4 * points.length, _, hk, List.getElem?_eq_getElem hk, Or.inr ⟨?_, hw2⟩⟩
      have := hlabTop (i - 4 * points.length)
      rw [show i - 4 * points.length + 4 * points.length = i by omega] at this
      exact this
  refine ⟨wallLabel points.length, (List.range points.length).reverse, ?_, ?_, by simp, ?_⟩
  · intro i j v w hi hj hij
    obtain ⟨k, p, hk, hpk, h1⟩ := hplace i v hi
    obtain ⟨k', p', hk', hpk', h2⟩ := hplace j w hj
    rw [hij] at h1
    rcases h1 with ⟨h1, e1⟩ | ⟨h1, e1⟩ <;> rcases h2 with ⟨h2, e2⟩ | ⟨h2, e2⟩
    · have : k = k' := by omega
      subst this; rw [hpk] at hpk'; cases hpk'; rw [e1, e2]
    · omega
    · omega
    · have : k = k' := by omega
      subst this; rw [hpk] at hpk'; cases hpk'; rw [e1, e2]
  · -- the renamed triangles
    obtain ⟨ts, hts, hcount, hrange, -, hnd, -, -, hrim⟩ :=
      C60_wall_top (points.map RenderVertex2D.xy) (by simpa using h3)
    have hlt := hl.faces
    rw [hts] at hlt
    cases hlt
    simp only [List.length_map] at hrim hrange
    rw [hcw] at hrim
    simp only [Bool.false_eq_true, if_false] at hrim
    have hfull : lid.tris.length = points.length - 2 := by
      rw [ht, List.length_append, hs.face_count, List.length_map] at hall
      omega
    have hprism := prism_with_lid h3 hrange (hrim hfull)
    have hmap : m.tris.map (Tri.map (wallLabel points.length)) =
        prismSides points.length ++ lid.tris.map (Tri.map (points.length + ·)) := by
      rw [ht, List.map_append]
      congr 1
      · apply List.ext_getElem?
        intro k
        rw [List.getElem?_map]
        by_cases hk : k < 2 * points.length
        · obtain ⟨f0, f1⟩ := hs.faces (k / 2) (by omega)
          obtain ⟨l0, l1, l2, l3⟩ := hlab (k / 2) (by omega)
          have h2 : ∀ q ∈ (List.range points.length).map fun i =>
              [(i, points.length + i, points.length + (i + 1) % points.length),
                (i, points.length + (i + 1) % points.length, (i + 1) % points.length)], q.length = 2 := by
            intro q hq; obtain ⟨j, -, rfl⟩ := List.mem_map.1 hq; rfl
          have g0 := flatten_get h2 (k / 2) 0 (by omega)
          have g1 := flatten_get h2 (k / 2) 1 (by omega)
          rw [List.getElem?_map, List.getElem?_range (by omega)] at g0 g1
          rw [← List.flatMap_def] at g0 g1
          rcases Nat.mod_two_eq_zero_or_one k with h | h
          · rw [show 2 * (k / 2) + 0 = k by omega] at g0
            rw [show 2 * (k / 2) = k by omega] at f0
            rw [f0, prismSides, g0]
            simp only [Option.map_some, Tri.map, l0, l1, l2]
            rfl
          · rw [show 2 * (k / 2) + 1 = k by omega] at g1 f1
            rw [f1, prismSides, g1]
            simp only [Option.map_some, Tri.map, l0, l2, l3]
            rfl
        · rw [List.getElem?_eq_none (by rw [hs.face_count]; omega), List.getElem?_eq_none]
          · rfl
          · rw [prismSides, List.flatMap_def, flatten_length (c := 2)]
            · simp; omega
            · intro q hq; obtain ⟨j, -, rfl⟩ := List.mem_map.1 hq; rfl
      · rw [List.map_map]
        apply List.map_congr_left
        intro t _
        simp only [Function.comp_apply, Tri.map, hs.vertex_count, hlabTop]
    rw [hmap]
    exact hprism
  · intro k p hk
    have hkl := (List.getElem?_eq_some_iff.1 hk).1
    rw [List.length_reverse] at hkl
    rw [List.getElem?_reverse (by omega)] at hk
    obtain ⟨p', q, v0, v1, v2, v3, hp', -, a0, -, -, -, b0, -⟩ := hside (points.length - 1 - k) (by omega)
    rw [hk] at hp'
    cases hp'
    refine ⟨4 * (points.length - 1 - k), v0, ?_, a0, b0⟩
    rw [(hlab _ (by omega)).1, List.getElem?_reverse (by simp; omega)]
    simp only [List.length_range]
    rw [List.getElem?_range (by omega)]


/-- **C63**. Computing the texture coordinates of the sides never panics. Between two points that stand
for drag points with their own coordinate (`texMarks`), the coordinate changes from one to the other in
proportion to the length of the way; without such drag points from 0 to 1 around the whole wall. -/
theorem C63_texture (points : List RenderVertex2D) (dps : List DragPoint) (hn : 0 < points.length) :
    ∃ coords, sideTextureCoords points dps = .ok coords ∧ coords.length = points.length ∧
      (texMarks points dps = [] → ∀ j < points.length,
        coords[j]? = some (proportional points 0 points.length 0 f32One j)) ∧
      ∀ (i : Nat) a b p q, (texMarks points dps)[i]? = some a →
        (texMarks points dps)[(i + 1) % (texMarks points dps).length]? = some b →
        dps[a.1]? = some p → dps[b.1]? = some q →
        ∀ len, (len = if a.2 < b.2 then b.2 - a.2 else b.2 + points.length - a.2) →
        ∀ j < len, coords[(a.2 + j) % points.length]? =
          some (proportional points a.2 len p.tex_coord q.tex_coord j) := by
  obtain ⟨coords, h1, h2, h3, h4⟩ := sideTextureCoords_eq points dps hn
  refine ⟨coords, h1, h2, h3, ?_⟩
  intro i a b p q ha hb hp hq len hlen j hj
  have hil := (List.getElem?_eq_some_iff.1 ha).1
  have hne : texMarks points dps ≠ [] := by intro h; rw [h] at hil; simp at hil
  have hg := texMarks_good points dps hne
  have hlen' : sectionEnd points.length (texMarks points dps) i - a.2 = len := by
    unfold sectionEnd
    rcases next_cases hil with ⟨h5, h6⟩ | ⟨h5, h6⟩
    · rw [h6] at hb
      rw [hb]
      have := hg.sorted i (i + 1) a b (by omega) ha hb
      rw [if_pos this] at hlen
      exact hlen.symm
    · rw [h6] at hb
      rw [List.getElem?_eq_none (by omega)]
      have hle : b.2 ≤ a.2 := by
        cases i with
        | zero => rw [ha] at hb; cases hb; omega
        | succ i => have := hg.sorted 0 (i + 1) b a (by omega) hb ha; omega
      rw [if_neg (by omega)] at hlen
      rw [List.head?_eq_getElem?, hb]
      exact hlen.symm
  have htex : sectionTex dps false (texMarks points dps) i = (p.tex_coord, q.tex_coord) := by
    unfold sectionTex
    simp only [Bool.false_eq_true, if_false]
    have : (if i + 1 < (texMarks points dps).length then i + 1 else 0) =
        (i + 1) % (texMarks points dps).length := by
      rcases next_cases hil with ⟨h5, h6⟩ | ⟨h5, h6⟩
      · rw [if_pos h5, h6]
      · rw [if_neg (by omega), h6]
    rw [this, ha, hb]
    simp [hp, hq]
  have := h4 i a ha j (by rw [hlen']; exact hj)
  rw [hlen', htex] at this
  exact this

/-- **C63**, which drag point. If no two neighbouring drag points coincide, the `k`-th point marked as a
drag point is drag point `k`, so that the marks carry the coordinates of the drag points they stand for. -/
theorem C63_marks {fuel dps accuracy points} (h2 : 2 ≤ dps.length)
    (h : getRgVertex2D fuel dps accuracy true = .ok points)
    (hdiff : ∀ pq ∈ curvePairs dps true, coincide2D pq.1 pq.2 = false) :
    points.filter (·.control_point) =
        dps.map (fun d => { x := d.x, y := d.y, smooth := d.smooth, control_point := true }) ∧
      ∀ m ∈ texMarks points dps, ∃ p d, points[m.2]? = some p ∧ dps[m.1]? = some d ∧
        p.x = d.x ∧ p.y = d.y ∧ d.has_auto_texture = false := by
  have hall : points.filter (·.control_point) =
      dps.map (fun d => { x := d.x, y := d.y, smooth := d.smooth, control_point := true }) := by
    rw [(C61_control_points h2 h).1, List.filter_eq_self.2]
    · have : (curvePairs dps true).map Prod.fst = dps := by
        unfold curvePairs
        simp only [if_true]
        rw [List.map_fst_zip]
        cases dps with
        | nil => simp at h2
        | cons a l => simp
      rw [show (fun (x : DragPoint × DragPoint) => match x with
          | (p, _) => ({ x := p.x, y := p.y, smooth := p.smooth, control_point := true } : RenderVertex2D)) =
          (fun d : DragPoint => ({ x := d.x, y := d.y, smooth := d.smooth, control_point := true } : RenderVertex2D))
            ∘ Prod.fst from rfl]
      rw [← List.map_map, this]
    · intro pq hpq
      have := hdiff pq hpq
      simp [this]
  refine ⟨hall, ?_⟩
  intro m hm
  obtain ⟨i, hi, he⟩ := List.mem_filterMap.1 hm
  dsimp only at he
  split at he
  · rename_i hc
    cases he
    obtain ⟨hc1, hc2⟩ := hc
    have hi := List.mem_range.1 hi
    rw [List.getElem?_eq_getElem hi, Option.map_some, Option.some.injEq] at hc1
    cases hd : dps[(points.take i).countP (·.control_point)]? with
    | none => rw [hd] at hc2; cases hc2
    | some d =>
      rw [hd, Option.map_some, Option.some.injEq] at hc2
      refine ⟨points[i], d, List.getElem?_eq_getElem hi, rfl, ?_⟩
      -- the control point at `i` is the one after those before it
      have hk : (points.filter (·.control_point))[(points.take i).countP (·.control_point)]? =
          some points[i] := by
        conv => lhs; lhs; rw [← List.take_append_drop i points]
        rw [List.filter_append, List.getElem?_append_right (by rw [List.countP_eq_length_filter]; omega),
          ← List.countP_eq_length_filter, Nat.sub_self, List.drop_eq_getElem_cons hi,
          List.filter_cons_of_pos (by exact hc1)]
        rfl
      rw [hall, List.getElem?_map, hd] at hk
      have := Option.some.inj hk
      rw [← this]
      exact ⟨rfl, rfl, hc2⟩
  · cases he

end

/-! ### Concrete cases -/

section
attribute [local instance] ieeeExact

/-- a clockwise square with a notch; all corners sharp -/
def notchedPoints : List DragPoint :=
  [dragAt 0 0 false, dragAt 0 fTen false, dragAt fFour fTwo false, dragAt fTen fTen false,
    dragAt fTen 0 false]

/-- a wall with sides, top and a side image; the second drag point has its own texture coordinate -/
def notchedWall : Wall :=
  { Wall.default with
    drag_points := notchedPoints.map fun d =>
      { d with has_auto_texture := d.y == 0 || d.x != 0, tex_coord := fHalf }
    is_top_bottom_visible := true, is_side_visible := true, side_image := "brick".toList }

example : texMarks [⟨0, 0, false, false, true⟩, ⟨0, fTen, false, false, true⟩] notchedWall.drag_points = [(1, 1)] := by
  decide +kernel

/-- the hypotheses of `C62_surface` hold for it -/
example : ∃ points m, getRgVertex2D 6 notchedWall.drag_points fFour true = .ok points ∧
    buildWallMesh 6 notchedWall = .ok (some m) ∧
    notchedWall.is_top_bottom_visible = notchedWall.is_side_visible ∧
    Arith.lt 0 (signedArea (points.map RenderVertex2D.xy)) = false ∧
    points.length = 5 ∧ m.tris.length = 2 * points.length + (points.length - 2) := by
  have h1 : ((getRgVertex2D 6 notchedWall.drag_points fFour true).toOption.map fun points =>
      (Arith.lt 0 (signedArea (points.map RenderVertex2D.xy)), points.length)) = some (false, 5) := by
    decide +kernel
  have h2 : ((buildWallMesh 6 notchedWall).toOption.bind fun r => r.map fun m => m.tris.length) =
      some 13 := by decide +kernel
  cases hp : getRgVertex2D 6 notchedWall.drag_points fFour true with
  | error e => rw [hp] at h1; cases h1
  | ok points =>
    cases hm : buildWallMesh 6 notchedWall with
    | error e => rw [hm] at h2; cases h2
    | ok r =>
      cases r with
      | none => rw [hm] at h2; cases h2
      | some m =>
        rw [hp] at h1
        rw [hm] at h2
        have h1 := Option.some.inj h1
        have h2 : m.tris.length = 13 := Option.some.inj h2
        refine ⟨points, m, rfl, rfl, rfl, congrArg Prod.fst h1, congrArg Prod.snd h1, ?_⟩
        rw [h2, show points.length = 5 from congrArg Prod.snd h1]

/-- the square, counterclockwise -/
def squareWall (clockwise : Bool) : Wall :=
  { Wall.default with
    drag_points := (if clockwise then id else List.reverse)
      [dragAt 0 0 false, dragAt 0 fTen false, dragAt fTen fTen false, dragAt fTen 0 false]
    is_top_bottom_visible := true, is_side_visible := true }

/-- **C62**, failure: for a counterclockwise outline the sides and the top are oriented differently. The
same directed edge is used by a side and by the top, so that one of them faces the wrong way; for the
same square given clockwise this does not happen. -/
theorem C62_counterclockwise_counterexample :
    (∃ m, buildWallMesh 6 (squareWall false) = .ok (some m) ∧
      ¬ (triEdges (m.tris.map (Tri.map (weldAll m.vertices)))).Nodup) ∧
    (∃ m, buildWallMesh 6 (squareWall true) = .ok (some m) ∧
      (triEdges (m.tris.map (Tri.map (weldAll m.vertices)))).Nodup) := by
  have key : ∀ cw, ((buildWallMesh 6 (squareWall cw)).toOption.bind fun r => r.map fun m =>
      decide ((triEdges (m.tris.map (Tri.map (weldAll m.vertices)))).Nodup)) = some cw := by
    intro cw; cases cw <;> decide +kernel
  have get : ∀ cw, ∃ m, buildWallMesh 6 (squareWall cw) = .ok (some m) ∧
      decide ((triEdges (m.tris.map (Tri.map (weldAll m.vertices)))).Nodup) = cw := by
    intro cw
    have h := key cw
    cases hm : buildWallMesh 6 (squareWall cw) with
    | error e => rw [hm] at h; cases h
    | ok r =>
      cases r with
      | none => rw [hm] at h; cases h
      | some m => rw [hm] at h; exact ⟨m, rfl, Option.some.inj h⟩
  obtain ⟨m1, a1, b1⟩ := get false
  obtain ⟨m2, a2, b2⟩ := get true
  exact ⟨⟨m1, a1, of_decide_eq_false b1⟩, ⟨m2, a2, of_decide_eq_true b2⟩⟩

/-- a square whose first corner is given twice; only the last drag point has its own texture coordinate -/
def doubledPoints : List DragPoint :=
  [dragAt 0 0 false, dragAt 0 0 false, dragAt 0 fTen false, dragAt fTen fTen false,
    { dragAt fTen 0 false with has_auto_texture := false, tex_coord := fHalf }].map fun d =>
      { d with has_auto_texture := d.tex_coord == 0 }

/-- **C63**, failure: where two neighbouring drag points coincide, one of them is left out of the curve
but not of the counting, so that later coordinates go to the wrong point or are lost: here the last drag
point has its own coordinate 0.5, but no point of the curve is taken for it. Without the double corner
it is found. -/
theorem C63_marks_counterexample :
    ((getRgVertex2D 6 doubledPoints fFour true).toOption.map fun points =>
      (texMarks points doubledPoints, points.length)) = some ([], 4) ∧
    ((getRgVertex2D 6 doubledPoints.tail fFour true).toOption.map fun points =>
      (texMarks points doubledPoints.tail, points.length)) = some ([(3, 3)], 4) := by
  decide +kernel

/-- the hypotheses of `C63_marks` hold without the double corner -/
example : 2 ≤ doubledPoints.tail.length ∧
    (∀ pq ∈ curvePairs doubledPoints.tail true, coincide2D pq.1 pq.2 = false) ∧
    (getRgVertex2D 6 doubledPoints.tail fFour true).isOk = true := by
  decide +kernel

end
end Vpin
