import Verif.Spec.GltfItems
import Verif.Lemmas.GltfOwned
import Verif.Lemmas.GltfScene
import Verif.Lemmas.SceneInside
/-! Helper lemmas: the faces of the collected meshes use their own vertices. -/
namespace Vpin
section
variable [Arith]
open Scene

/-- the corners of the faces are vertices of the mesh -/
def NamedMesh.Inside (m : NamedMesh) : Prop := FacesInside m.vertices.length m.faces

omit [Arith] in
theorem namedInside_append {a b : List NamedMesh} (ha : ∀ m ∈ a, m.Inside) (hb : ∀ m ∈ b, m.Inside) :
    ∀ m ∈ a ++ b, m.Inside := by
  intro m hm
  rcases List.mem_append.mp hm with hm | hm
  · exact ha m hm
  · exact hb m hm

omit [Arith] in
theorem namedInside_part {name : Str} {suffix : String} {r : Option RawMesh} {f : NamedMesh → NamedMesh}
    (h : ∀ x, r = some x → MeshInside x) (hv : ∀ x, (f x).vertices = x.vertices) (hf : ∀ x, (f x).faces = x.faces) :
    ∀ m ∈ partMesh name suffix r f, m.Inside := by
  intro m hm
  obtain ⟨x, hx, rfl⟩ := mem_partMesh hm
  unfold NamedMesh.Inside
  rw [hv, hf]
  exact h x hx

omit [Arith] in
theorem namedInside_one {name : Str} {suffix : String} {x : RawMesh} {f : NamedMesh → NamedMesh}
    (h : MeshInside x) (hv : ∀ x, (f x).vertices = x.vertices) (hf : ∀ x, (f x).faces = x.faces) :
    ∀ m ∈ partMesh name suffix (some x) f, m.Inside :=
  namedInside_part (fun r hr => by cases hr; exact h) hv hf

theorem namedInside_none : ∀ m ∈ Collected.none.meshes, m.Inside := by intro m hm; cases hm

theorem collectItem_inside {E : GltfEnv} {fuel : Nat} {o : GltfOptions} {vpx : VPX} {it : GameItemEnum} {c : Collected}
    (hS : GltfStockInside E.S)
    (hp : ∀ p m, it = .primitive p → p.use_3d_mesh = true → p.readMesh E.Z = .ok (some m) →
      FacesInside m.vertices.length m.faces)
    (h : collectItem E fuel o vpx it = .ok c) : ∀ m ∈ c.meshes, m.Inside := by
  cases it with
  | wall w =>
    have h : collectWall E fuel o vpx w = .ok c := h
    unfold collectWall at h
    split at h
    · cases h
      exact namedInside_none
    · obtain ⟨m, hm, h⟩ := Res.unbind h
      cases m with
      | none => cases h; exact namedInside_none
      | some m =>
        cases h
        obtain ⟨ht, hs⟩ := wallMeshes_inside hm
        refine namedInside_append (namedInside_part ?_ (fun _ => rfl) (fun _ => rfl))
          (namedInside_part ?_ (fun _ => rfl) (fun _ => rfl))
        · intro r hr
          split at hr
          · obtain ⟨g, hg, rfl⟩ := Option.map_eq_some_iff.1 hr
            exact ht g hg
          · cases hr
        · intro r hr
          split at hr
          · obtain ⟨g, hg, rfl⟩ := Option.map_eq_some_iff.1 hr
            exact hs g hg
          · cases hr
  | flipper f =>
    have h : Except.ok (collectFlipper E o f) = .ok c := h
    cases h
    unfold collectFlipper
    split
    · exact namedInside_none
    · split
      · exact namedInside_none
      · rename_i h1
        split at h1
        · obtain ⟨h2, h3⟩ := hS.flipper _ _ _ _ h1
          exact namedInside_append (namedInside_one (h2) (fun _ => rfl) (fun _ => rfl))
            (namedInside_part h3 (fun _ => rfl) (fun _ => rfl))
        · cases h1
  | bumper b =>
    have h : collectBumper E fuel o vpx b = .ok c := h
    unfold collectBumper at h
    obtain ⟨x, hx, h⟩ := Res.unbind h
    cases h
    refine namedInside_append (namedInside_append (namedInside_append ?_ ?_) ?_) ?_
    all_goals exact namedInside_part (fun r hr => hS.bumper b r (by simp [hr])) (fun _ => rfl) (fun _ => rfl)
  | trigger t =>
    have h : collectTrigger E fuel o vpx t = .ok c := h
    unfold collectTrigger at h
    split at h
    · cases h
      exact namedInside_none
    · obtain ⟨x, hx, h⟩ := Res.unbind h
      split at h
      · cases h; exact namedInside_none
      · rename_i h1
        split at h1
        · cases h
          dsimp only
          refine namedInside_one (hS.trigger _ _ h1) ?_ ?_ <;> exact fun _ => rfl
        · cases h1
  | light l =>
    have h : collectLight E fuel o vpx l = .ok c := h
    unfold collectLight at h
    split at h
    · cases h
      exact namedInside_none
    · obtain ⟨x, hx, h⟩ := Res.unbind h
      cases h
      have hb : ∀ m, ((if lightShowBulbMesh l vpx.version then E.S.light l else none).getD (none, none)).1 = some m ∨
          ((if lightShowBulbMesh l vpx.version then E.S.light l else none).getD (none, none)).2 = some m →
          MeshInside m := by
        intro m hm
        split at hm
        · cases hl : E.S.light l with
          | none =>
            rw [hl] at hm
            rcases hm with hm | hm <;> cases hm
          | some p =>
            rw [hl] at hm
            exact hS.light l p.1 p.2 hl m hm
        · rcases hm with hm | hm <;> cases hm
      refine namedInside_append (namedInside_append ?_ ?_) ?_
      · exact namedInside_part (fun r hr => hb r (.inl hr)) (fun _ => rfl) (fun _ => rfl)
      · exact namedInside_part (fun r hr => hb r (.inr hr)) (fun _ => rfl) (fun _ => rfl)
      · split
        · intro m hm
          cases hm
        · rename_i h1
          dsimp only
          refine namedInside_one (hS.insert _ _ _ _ h1) ?_ ?_ <;> exact fun _ => rfl
  | kicker k =>
    have h : collectKicker E fuel o vpx k = .ok c := h
    unfold collectKicker at h
    split at h
    · cases h
      exact namedInside_none
    · obtain ⟨x, hx, h⟩ := Res.unbind h
      cases h
      exact namedInside_append
        (namedInside_part (fun r hr => hS.kicker k r (by simp [hr])) (fun _ => rfl) (fun _ => rfl))
        (namedInside_part (fun r hr => hS.kicker k r (by simp [hr])) (fun _ => rfl) (fun _ => rfl))
  | decal d =>
    have h : collectDecal E fuel o vpx d = .ok c := h
    unfold collectDecal at h
    obtain ⟨x, hx, h⟩ := Res.unbind h
    split at h
    · cases h; exact namedInside_none
    · rename_i h1
      cases h
      dsimp only
      refine namedInside_one (hS.decal _ _ h1) ?_ ?_ <;> exact fun _ => rfl
  | gate g =>
    have h : collectGate E fuel o vpx g = .ok c := h
    unfold collectGate at h
    split at h
    · cases h
      exact namedInside_none
    · obtain ⟨x, hx, h⟩ := Res.unbind h
      split at h
      · cases h; exact namedInside_none
      · rename_i h1
        split at h1
        · cases h
          obtain ⟨h2, h3⟩ := hS.gate _ _ _ h1
          exact namedInside_append (namedInside_part h3 (fun _ => rfl) (fun _ => rfl))
            (namedInside_one (h2) (fun _ => rfl) (fun _ => rfl))
        · cases h1
  | spinner s =>
    have h : collectSpinner E fuel o vpx s = .ok c := h
    unfold collectSpinner at h
    split at h
    · cases h
      exact namedInside_none
    · obtain ⟨x, hx, h⟩ := Res.unbind h
      cases h
      obtain ⟨h2, h3⟩ := hS.spinner s
      exact namedInside_append (namedInside_part h3 (fun _ => rfl) (fun _ => rfl))
        (namedInside_one (h2) (fun _ => rfl) (fun _ => rfl))
  | ramp r =>
    have h : collectRamp E fuel o vpx r = .ok c := h
    unfold collectRamp at h
    split at h
    · cases h
      exact namedInside_none
    · obtain ⟨m, hm, h⟩ := Res.unbind h
      cases m with
      | none => cases h; exact namedInside_none
      | some m =>
        cases h
        dsimp only
        refine namedInside_one (ramp_inside hm) ?_ ?_ <;> exact fun _ => rfl
  | rubber r =>
    have h : collectRubber E fuel o vpx r = .ok c := h
    unfold collectRubber at h
    split at h
    · cases h
      exact namedInside_none
    · obtain ⟨m, hm, h⟩ := Res.unbind h
      cases m with
      | none => cases h; exact namedInside_none
      | some m =>
        obtain ⟨m, q⟩ := m
        cases h
        dsimp only
        refine namedInside_one (raw_inside (C64_indices hm).1) ?_ ?_ <;> exact fun _ => rfl
  | plunger p =>
    have h : collectPlunger E fuel o vpx p = .ok c := h
    unfold collectPlunger at h
    split at h
    · cases h
      exact namedInside_none
    · obtain ⟨x, hx, h⟩ := Res.unbind h
      cases h
      have hb : ∀ m, m ∈ [(if p.is_visible then E.S.plunger p else ⟨none, none, none, none, none⟩).flat_rod,
          (if p.is_visible then E.S.plunger p else ⟨none, none, none, none, none⟩).rod,
          (if p.is_visible then E.S.plunger p else ⟨none, none, none, none, none⟩).spring,
          (if p.is_visible then E.S.plunger p else ⟨none, none, none, none, none⟩).ring,
          (if p.is_visible then E.S.plunger p else ⟨none, none, none, none, none⟩).tip].filterMap id → MeshInside m := by
        cases p.is_visible with
        | true => exact hS.plunger p
        | false => intro m hm; simp at hm
      refine namedInside_append (namedInside_append (namedInside_append (namedInside_append ?_ ?_) ?_) ?_) ?_
      all_goals exact namedInside_part (fun r hr => hb r (by simp [hr])) (fun _ => rfl) (fun _ => rfl)
  | primitive p =>
    have h : collectPrimitive E o vpx p = .ok c := h
    unfold collectPrimitive at h
    dsimp only at h
    split at h
    · cases h
      exact namedInside_none
    · split at h
      · cases h; exact namedInside_none
      · cases h
      · cases h; exact namedInside_none
      · rename_i m he
        have key : FacesInside m.vertices.length m.faces := by
          cases hu : p.use_3d_mesh with
          | false => exact builtin_inside hu he
          | true => exact hp p m rfl hu (by rw [← (C69_effective E.Z p).1 hu]; exact he)
        cases h
        intro x hx
        rw [List.mem_singleton.mp hx]
        unfold NamedMesh.Inside
        simp only [NamedMesh.of, List.length_map]
        exact key
  | hitTarget t =>
    have h : Except.ok (collectHitTarget E o t) = .ok c := h
    cases h
    unfold collectHitTarget
    split
    · exact namedInside_none
    · split
      · exact namedInside_none
      · rename_i h1
        split at h1
        · dsimp only
          refine namedInside_one (hS.hitTarget _ _ h1) ?_ ?_ <;> exact fun _ => rfl
        · cases h1
  | flasher f =>
    have h : Except.ok (collectFlasher E o vpx f) = .ok c := h
    cases h
    unfold collectFlasher
    split
    · exact namedInside_none
    · split
      · exact namedInside_none
      · rename_i h1
        dsimp only
        refine namedInside_one (hS.flasher _ _ _ _ h1) ?_ ?_ <;> exact fun _ => rfl
  | ball b =>
    have h : Except.ok (collectBall E o vpx b) = .ok c := h
    cases h
    unfold collectBall
    dsimp only
    refine namedInside_one (hS.ball b) ?_ ?_ <;> exact fun _ => rfl
  | _ =>
    cases h
    exact namedInside_none

omit [Arith] in
theorem implicitPlayfield_inside (g : GameData) : (implicitPlayfield g).Inside := by
  intro f hf i hi
  simp only [implicitPlayfield, NamedMesh.of, playfieldMesh, List.mem_cons, List.not_mem_nil, or_false] at hf
  show 0 ≤ i ∧ i < 4
  rcases hf with rfl | rfl
  all_goals
    simp only [List.mem_cons, List.not_mem_nil, or_false] at hi
    omega

/-- the faces of every collected mesh use its own vertices -/
theorem collectMeshes_inside {E : GltfEnv} {fuel : Nat} {o : GltfOptions} {vpx : VPX} {meshes : List NamedMesh}
    {groups : List ItemGroup} (hS : GltfStockInside E.S)
    (hp : ∀ p m, .primitive p ∈ vpx.gameitems → p.use_3d_mesh = true → p.readMesh E.Z = .ok (some m) →
      FacesInside m.vertices.length m.faces)
    (h : collectMeshes E fuel o vpx = .ok (meshes, groups)) : ∀ m ∈ meshes, m.Inside := by
  obtain ⟨parts, h1, h2⟩ := Res.unbind h
  have h2 := Except.ok.inj h2
  have h3 : ∀ m ∈ parts.flatMap (·.meshes), m.Inside := by
    intro m hm
    obtain ⟨c, hc, hm⟩ := List.mem_flatMap.mp hm
    obtain ⟨it, hit, hc⟩ := (mapM_part h1).1 c hc
    exact collectItem_inside hS (fun p m hpm => hp p m (hpm ▸ hit)) hc m hm
  intro m hm
  have h4 : _ = meshes := congrArg Prod.fst h2
  rw [← h4] at hm
  dsimp only at hm
  split at hm
  · exact h3 m hm
  · rcases List.mem_append.mp hm with hm | hm
    · exact h3 m hm
    · rw [List.mem_singleton.mp hm]
      exact implicitPlayfield_inside _

end
end Vpin
