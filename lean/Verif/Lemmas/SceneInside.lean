import Verif.Lemmas.SceneExport
import Verif.Spec.SceneItems
import Verif.Props.Prism
import Verif.Props.RampMesh
import Verif.Props.RubberMesh
import Verif.Props.WallMesh
/-
The faces of what is exported only use their own vertices.
-/
namespace Vpin
open Scene Arith

theorem raw_inside {m : GenMesh} (h : InRange m.vertices.length m.tris) : MeshInside m.raw := by
  intro f hf i hi
  obtain ⟨t, ht, rfl⟩ := List.mem_map.1 hf
  obtain ⟨a, b, c⟩ := h t ht
  simp only [Tri.face, List.mem_cons, List.not_mem_nil, or_false] at hi
  show 0 ≤ i ∧ i < m.vertices.length
  omega

theorem combine_inside {a b : RawMesh} (ha : MeshInside a) (hb : MeshInside b) : MeshInside (combineMeshes a b) := by
  intro f hf i hi
  simp only [combineMeshes, List.length_append] at hf ⊢
  rcases List.mem_append.1 hf with hf | hf
  · have := ha f hf i hi
    omega
  · obtain ⟨g, hg, rfl⟩ := List.mem_map.1 hf
    have h0 := hb g hg g.i0 (by simp)
    have h1 := hb g hg g.i1 (by simp)
    have h2 := hb g hg g.i2 (by simp)
    simp only [List.mem_cons, List.not_mem_nil, or_false] at hi
    omega

theorem part_inside {name : Str} {suffix : String} {m : Option RawMesh} {t : Vec3} {material texture : Option Str}
    (h : ∀ r, m = some r → MeshInside r) : ∀ b ∈ partBlock name suffix m t material texture, CornersInside b := by
  intro b hb
  unfold partBlock at hb
  cases m with
  | none => cases hb
  | some r =>
    simp only [List.mem_cons, List.not_mem_nil, or_false] at hb
    subst hb
    exact h r rfl

section
variable [Arith]

theorem wallMeshes_inside {fuel : Nat} {w : Wall} {dims : TableDims} {m : WallMeshes}
    (h : buildWallMeshes fuel w dims = .ok (some m)) :
    (∀ g, m.top = some g → MeshInside g.raw) ∧ ∀ g, m.side = some g → MeshInside g.raw := by
  obtain ⟨points, hp⟩ : ∃ points, getRgVertex2D fuel w.drag_points fFour true = .ok points := by
    cases hp : getRgVertex2D fuel w.drag_points fFour true with
    | ok p => exact ⟨p, rfl⟩
    | error e => unfold buildWallMeshes at h; rw [hp] at h; cases h
  obtain ⟨r, hr, hnone, hparts⟩ := C62_wall_meshes (dims := dims) hp
  rw [hr] at h
  cases h
  have h3 : 3 ≤ points.length := by
    by_cases h : points.length < 3
    · have := hnone.2 h; cases this
    · omega
  obtain ⟨coords, sides, hside, hs, -, -, -, hl⟩ := hparts m rfl
  refine ⟨?_, ?_⟩
  · intro lid hg
    obtain ⟨hl, -⟩ := hl lid hg
    obtain ⟨ts, hts, -, hr, hpr, -⟩ := C60_wall_top (points.map RenderVertex2D.xy) (by simpa using h3)
    have := hl.faces
    rw [hts] at this
    cases this
    refine raw_inside ?_
    rw [hl.vertex_count]
    simpa using hr
  · intro g hg
    rw [hside] at hg
    cases hg
    refine raw_inside ?_
    rw [hs.vertex_count]
    intro t ht
    obtain ⟨k, hk, rfl⟩ := List.getElem_of_mem ht
    have hk' := hk
    rw [hs.face_count] at hk'
    obtain ⟨f0, f1⟩ := hs.faces (k / 2) (by omega)
    rcases Nat.mod_two_eq_zero_or_one k with h | h
    · rw [show 2 * (k / 2) = k by omega, List.getElem?_eq_getElem hk] at f0
      rw [Option.some.inj f0]
      dsimp only
      omega
    · rw [show 2 * (k / 2) + 1 = k by omega, List.getElem?_eq_getElem hk] at f1
      rw [Option.some.inj f1]
      dsimp only
      omega

theorem flatten_length_const {α : Type} {c : Nat} : ∀ {ls : List (List α)}, (∀ l ∈ ls, l.length = c) →
    ls.flatten.length = ls.length * c := by
  intro ls
  induction ls with
  | nil => intro _; simp
  | cons l ls ih =>
    intro h
    rw [List.flatten_cons, List.length_append, h l (by simp), ih fun x hx => h x (by simp [hx]), List.length_cons,
      Nat.add_mul, Nat.one_mul, Nat.add_comm]

theorem ramp_inside {fuel : Nat} {ramp : Ramp} {dims : TableDims} {detail : UInt32} {opacity : Bool} {m : GenMesh}
    (h : buildRampMesh fuel ramp dims detail opacity = .ok (some m)) : MeshInside m.raw := by
  refine raw_inside ?_
  by_cases hf : ramp.ramp_type = .Flat
  · exact (C66_indices hf h).1
  · obtain ⟨vv, hp, hw, h2⟩ := ramp_points h
    obtain ⟨wires, hm, hl, hW⟩ := wires_core (dims := dims) (detail := detail) (opacity := opacity) hf hp hw h2
    rw [hm] at h
    rcases Res.ite_ok h with ⟨_, h⟩ | ⟨_, h⟩
    · cases h
    · cases h
      have hc : ∀ vs ∈ wires, vs.length = vv.length * ringSegments detail (!opacity) := by
        intro vs hvs
        obtain ⟨k, hk, rfl⟩ := List.getElem_of_mem hvs
        obtain ⟨⟨line, lift⟩, hk2⟩ : ∃ x, (wiresOf ramp vv)[k]? = some x := ⟨_, List.getElem?_eq_getElem (by omega)⟩
        have hc := (hW k line lift _ hk2 (List.getElem?_eq_getElem hk)).vertex_count
        have hline : line.length = vv.length := by
          have hmem := List.mem_of_getElem? hk2
          revert hmem
          cases ht : ramp.ramp_type <;> simp only [wiresOf, ht, List.mem_cons, List.not_mem_nil, or_false] <;>
            intro hmem
          case Flat => exact absurd ht hf
          all_goals
            first
            | (rcases hmem with h | h | h | h <;> cases h <;> rw [List.length_mapIdx])
            | (rcases hmem with h | h | h <;> cases h <;> rw [List.length_mapIdx])
            | (rcases hmem with h | h <;> cases h <;> rw [List.length_mapIdx])
            | (cases hmem; rw [List.length_mapIdx])
        rw [hc, hline]
      show InRange wires.flatten.length _
      rw [flatten_length_const hc]
      exact (C67_surface (wireFaces_all _ _ _)).1

theorem builtin_inside {Z : Zlib} {p : Primitive} {m : Mesh} (hb : p.use_3d_mesh = false)
    (h : effectivePrimitiveMesh Z p = .ok (some m)) : FacesInside m.vertices.length m.faces := by
  obtain ⟨-, h1, h2⟩ := C69_effective Z p
  by_cases hs : p.sides.toNat < 3
  · rw [h1 hb hs] at h; cases h
  · obtain ⟨m', vs, he, hvs, hv, hfaces⟩ := h2 hb (by omega)
    rw [he] at h
    cases h
    have hn : m.vertices.length = 4 * p.sides.toNat + 2 := by
      have := hv.count
      rw [← hvs, List.length_map] at this
      exact this
    obtain ⟨hr, -, -⟩ := C69_indices (n := p.sides.toNat) (by omega)
    intro f hf i hi
    rw [hfaces] at hf
    obtain ⟨t, ht, rfl⟩ := List.mem_map.1 hf
    obtain ⟨k, hk, ht⟩ := List.mem_flatMap.1 ht
    have key : t.1 < 4 * p.sides.toNat + 2 ∧ t.2.1 < 4 * p.sides.toNat + 2 ∧ t.2.2 < 4 * p.sides.toNat + 2 := by
      rcases List.mem_append.1 ht with ht | ht
      · exact hr t (List.mem_flatMap.2 ⟨k, hk, ht⟩)
      · split at ht
        · obtain ⟨u, hu, rfl⟩ := List.mem_map.1 ht
          obtain ⟨a, b, c⟩ := hr u (List.mem_flatMap.2 ⟨k, hk, hu⟩)
          unfold Tri.flip
          dsimp only
          omega
        · cases ht
    simp only [List.mem_cons, List.not_mem_nil, or_false] at hi
    rw [hn]
    omega

/-- the faces of an item only use its vertices -/
theorem item_inside {Z : Zlib} {S : Stock} {fuel : Nat} {o : ObjExportOptions} {vpx : VPX} {item : GameItemEnum}
    {bs : List Block} (hS : StockInside S)
    (hp : ∀ p m, item = .primitive p → p.use_3d_mesh = true → p.readMesh Z = .ok (some m) →
      FacesInside m.vertices.length m.faces)
    (h : itemBlocks Z S fuel o vpx item = .ok bs) : ∀ b ∈ bs, CornersInside b := by
  have appendInside : ∀ {a c : List Block}, (∀ b ∈ a, CornersInside b) → (∀ b ∈ c, CornersInside b) →
      ∀ b ∈ a ++ c, CornersInside b := by
    intro a c ha hc b hb
    rcases List.mem_append.1 hb with hb | hb
    · exact ha b hb
    · exact hc b hb
  cases item with
  | primitive p =>
    simp only [itemBlocks, primitiveBlocks] at h
    rcases Res.ite_ok h with ⟨_, h⟩ | ⟨_, h⟩
    · cases h; intro b hb; cases hb
    · have key : ∀ m, effectivePrimitiveMesh Z p = .ok (some m) → FacesInside m.vertices.length m.faces := by
        intro m hm
        cases hu : p.use_3d_mesh with
        | false => exact builtin_inside hu hm
        | true => exact hp p m rfl hu (by rw [← (C69_effective Z p).1 hu]; exact hm)
      cases he : effectivePrimitiveMesh Z p with
      | error e => rw [he] at h; cases e <;> cases h; intro b hb; cases hb
      | ok r =>
        rw [he] at h
        cases r with
        | none => cases h; intro b hb; cases hb
        | some m =>
          cases h
          intro b hb
          simp only [List.mem_cons, List.not_mem_nil, or_false] at hb
          subst hb
          have := key m he
          unfold CornersInside
          simp only [List.length_map]
          exact this
  | wall w =>
    simp only [itemBlocks, wallBlocks] at h
    obtain ⟨r, h1, h⟩ := Res.unbind h
    cases r with
    | none => cases h; intro b hb; cases hb
    | some m =>
      obtain ⟨ht, hsd⟩ := wallMeshes_inside h1
      dsimp only at h
      have ht' : ∀ r, m.top.map GenMesh.raw = some r → MeshInside r := by
        intro r hr
        obtain ⟨g, hg, rfl⟩ := Option.map_eq_some_iff.1 hr
        exact ht g hg
      have hs' : ∀ r, m.side.map GenMesh.raw = some r → MeshInside r := by
        intro r hr
        obtain ⟨g, hg, rfl⟩ := Option.map_eq_some_iff.1 hr
        exact hsd g hg
      have h := Except.ok.inj h
      rw [← h]
      clear h
      generalize m.top.map GenMesh.raw = top at ht' ⊢
      generalize m.side.map GenMesh.raw = side at hs' ⊢
      split
      · intro b hb
        simp only [List.mem_cons, List.not_mem_nil, or_false] at hb
        subst hb
        exact ht' _ rfl
      · intro b hb
        simp only [List.mem_cons, List.not_mem_nil, or_false] at hb
        subst hb
        exact hs' _ rfl
      · split
        · intro b hb
          simp only [List.mem_cons, List.not_mem_nil, or_false] at hb
          rcases hb with rfl | rfl
          · exact hs' _ rfl
          · exact ht' _ rfl
        · intro b hb
          simp only [List.mem_cons, List.not_mem_nil, or_false] at hb
          subst hb
          exact combine_inside (hs' _ rfl) (ht' _ rfl)
      · intro b hb; cases hb
  | ramp r =>
    simp only [itemBlocks, rampBlocks] at h
    rcases Res.ite_ok h with ⟨_, h⟩ | ⟨_, h⟩
    · cases h; intro b hb; cases hb
    · obtain ⟨x, h1, h⟩ := Res.unbind h
      cases x with
      | none => cases h; intro b hb; cases hb
      | some m =>
        cases h
        intro b hb
        simp only [List.mem_cons, List.not_mem_nil, or_false] at hb
        subst hb
        exact ramp_inside h1
  | rubber r =>
    simp only [itemBlocks, rubberBlocks] at h
    rcases Res.ite_ok h with ⟨_, h⟩ | ⟨_, h⟩
    · cases h; intro b hb; cases hb
    · obtain ⟨x, h1, h⟩ := Res.unbind h
      cases x with
      | none => cases h; intro b hb; cases hb
      | some x =>
        obtain ⟨m, c⟩ := x
        cases h
        intro b hb
        simp only [List.mem_cons, List.not_mem_nil, or_false] at hb
        subst hb
        exact raw_inside (C64_indices h1).1
  | bumper x =>
    obtain ⟨z, h1, h⟩ := Res.unbind h
    cases h
    refine appendInside (appendInside (appendInside ?_ ?_) ?_) ?_
    all_goals exact part_inside fun r hr => hS.bumper x r (by simp [hr])
  | flipper f =>
    cases h
    unfold flipperBlocks
    cases hf : S.flipper f with
    | none => intro b hb; cases hb
    | some q =>
      obtain ⟨c, base, rubber⟩ := q
      obtain ⟨h1, h2⟩ := hS.flipper f c base rubber hf
      exact appendInside (part_inside fun r hr => by cases hr; exact h1) (part_inside h2)
  | gate g =>
    obtain ⟨z, h1, h⟩ := Res.unbind h
    cases hg : S.gate g with
    | none => rw [hg] at h; cases h; intro b hb; cases hb
    | some q =>
      obtain ⟨bracket, wire⟩ := q
      rw [hg] at h
      cases h
      obtain ⟨h1, h2⟩ := hS.gate g bracket wire hg
      exact appendInside (part_inside h2) (part_inside fun r hr => by cases hr; exact h1)
  | kicker k =>
    simp only [itemBlocks, kickerBlocks] at h
    rcases Res.ite_ok h with ⟨_, h⟩ | ⟨_, h⟩
    · cases h; intro b hb; cases hb
    · obtain ⟨z, h1, h⟩ := Res.unbind h
      cases h
      exact appendInside (part_inside fun r hr => hS.kicker k r (by simp [hr]))
        (part_inside fun r hr => hS.kicker k r (by simp [hr]))
  | spinner s =>
    obtain ⟨z, h1, h⟩ := Res.unbind h
    cases h
    obtain ⟨h2, h3⟩ := hS.spinner s
    exact appendInside (part_inside h3) (part_inside fun r hr => by cases hr; exact h2)
  | hitTarget t =>
    cases h
    exact part_inside fun r hr => hS.hitTarget t r hr
  | trigger t =>
    simp only [itemBlocks, triggerBlocks] at h
    rcases Res.ite_ok h with ⟨_, h⟩ | ⟨_, h⟩
    · cases h; intro b hb; cases hb
    · obtain ⟨z, h1, h⟩ := Res.unbind h
      cases h
      exact part_inside fun r hr => hS.trigger t r hr
  | plunger p =>
    simp only [itemBlocks] at h
    rcases Res.ite_ok h with ⟨_, h⟩ | ⟨_, h⟩
    · unfold plungerBlocks at h
      rcases Res.ite_ok h with ⟨_, h⟩ | ⟨_, h⟩
      · cases h; intro b hb; cases hb
      · obtain ⟨z, h1, h⟩ := Res.unbind h
        cases h
        refine appendInside (appendInside (appendInside (appendInside ?_ ?_) ?_) ?_) ?_
        all_goals exact part_inside fun r hr => hS.plunger p r (by simp [hr])
    · cases h; intro b hb; cases hb
  | _ => cases h; intro b hb; cases hb

end
end Vpin
