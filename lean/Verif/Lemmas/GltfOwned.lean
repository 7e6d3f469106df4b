import Verif.Model.GltfDoc
import Verif.Lemmas.Res
import Verif.Lemmas.Scene
/-! Helper lemmas: what the glTF exporter collects of an item. -/
namespace Vpin
section
variable [Arith]

omit [Arith] in
theorem mem_partMesh {name : Str} {suffix : String} {r : Option RawMesh} {f : NamedMesh → NamedMesh} {m : NamedMesh}
    (h : m ∈ partMesh name suffix r f) : ∃ x, r = some x ∧ m = f (NamedMesh.of (name ++ suffix.toList) x) := by
  cases r with
  | none => cases h
  | some x => exact ⟨x, rfl, List.mem_singleton.mp h⟩

/-- nothing, or a group with the name and the fields of the item, and meshes in this group -/
def Owned (E : GltfEnv) (it : GameItemEnum) (c : Collected) : Prop :=
  c.groups = [] ∧ c.meshes = [] ∨
  ∃ a : SharedAttrs, (it.editor_layer_name = a.editor_layer_name ∧ it.editor_layer = a.editor_layer) ∧
    c.groups = [itemGroup E it a] ∧ ∀ m ∈ c.meshes, m.group = some it.name

theorem Owned.none (E : GltfEnv) (it : GameItemEnum) : Owned E it .none := .inl ⟨rfl, rfl⟩

omit [Arith] in
theorem group_append {a b : List NamedMesh} {g : Option Str} (ha : ∀ m ∈ a, m.group = g) (hb : ∀ m ∈ b, m.group = g) :
    ∀ m ∈ a ++ b, m.group = g := by
  intro m hm
  rcases List.mem_append.mp hm with hm | hm
  · exact ha m hm
  · exact hb m hm

omit [Arith] in
theorem group_part {name : Str} {suffix : String} {r : Option RawMesh} {f : NamedMesh → NamedMesh} {g : Option Str}
    (h : ∀ x, (f x).group = g) : ∀ m ∈ partMesh name suffix r f, m.group = g := by
  intro m hm
  obtain ⟨x, _, rfl⟩ := mem_partMesh hm
  exact h _

local macro "owned" a:term : tactic => `(tactic| (
  refine .inr ⟨$a, ⟨rfl, rfl⟩, rfl, ?_⟩
  try dsimp only
  repeat' first
    | (refine group_part ?_; intro x; rfl)
    | refine group_append ?_ ?_))

theorem collectItem_owned {E : GltfEnv} {fuel : Nat} {o : GltfOptions} {vpx : VPX} {it : GameItemEnum} {c : Collected}
    (h : collectItem E fuel o vpx it = .ok c) : Owned E it c := by
  cases it with
  | wall w =>
    have h : collectWall E fuel o vpx w = .ok c := h
    unfold collectWall at h
    split at h
    · cases h
      exact .none _ _
    · obtain ⟨m, hm, h⟩ := Res.unbind h
      cases m with
      | none => cases h; exact .none _ _
      | some m => cases h; owned w.shared
  | flipper f =>
    have h : Except.ok (collectFlipper E o f) = .ok c := h
    cases h
    unfold collectFlipper
    split
    · exact .none _ _
    · split
      · exact .none _ _
      · owned f.shared
  | bumper b =>
    have h : collectBumper E fuel o vpx b = .ok c := h
    unfold collectBumper at h
    obtain ⟨x, hx, h⟩ := Res.unbind h
    cases h
    owned b.shared
  | trigger t =>
    have h : collectTrigger E fuel o vpx t = .ok c := h
    unfold collectTrigger at h
    split at h
    · cases h
      exact .none _ _
    · obtain ⟨x, hx, h⟩ := Res.unbind h
      split at h
      · cases h; exact .none _ _
      · cases h; owned t.shared
  | light l =>
    have h : collectLight E fuel o vpx l = .ok c := h
    unfold collectLight at h
    split at h
    · cases h
      exact .none _ _
    · obtain ⟨x, hx, h⟩ := Res.unbind h
      cases h
      refine .inr ⟨l.shared, ⟨rfl, rfl⟩, rfl, ?_⟩
      dsimp only
      refine group_append (group_append ?_ ?_) ?_
      · refine group_part ?_
        intro x
        rfl
      · refine group_part ?_
        intro x
        rfl
      · split
        · intro m hm
          cases hm
        · refine group_part ?_
          intro x
          rfl
  | kicker k =>
    have h : collectKicker E fuel o vpx k = .ok c := h
    unfold collectKicker at h
    split at h
    · cases h
      exact .none _ _
    · obtain ⟨x, hx, h⟩ := Res.unbind h
      cases h
      owned k.shared
  | decal d =>
    have h : collectDecal E fuel o vpx d = .ok c := h
    unfold collectDecal at h
    obtain ⟨x, hx, h⟩ := Res.unbind h
    split at h
    · cases h; exact .none _ _
    · cases h; owned d.shared
  | gate g =>
    have h : collectGate E fuel o vpx g = .ok c := h
    unfold collectGate at h
    split at h
    · cases h
      exact .none _ _
    · obtain ⟨x, hx, h⟩ := Res.unbind h
      split at h
      · cases h; exact .none _ _
      · cases h; owned g.shared
  | spinner s =>
    have h : collectSpinner E fuel o vpx s = .ok c := h
    unfold collectSpinner at h
    split at h
    · cases h
      exact .none _ _
    · obtain ⟨x, hx, h⟩ := Res.unbind h
      cases h
      owned s.shared
  | ramp r =>
    have h : collectRamp E fuel o vpx r = .ok c := h
    unfold collectRamp at h
    split at h
    · cases h
      exact .none _ _
    · obtain ⟨m, hm, h⟩ := Res.unbind h
      cases m with
      | none => cases h; exact .none _ _
      | some m => cases h; owned r.shared
  | rubber r =>
    have h : collectRubber E fuel o vpx r = .ok c := h
    unfold collectRubber at h
    split at h
    · cases h
      exact .none _ _
    · obtain ⟨m, hm, h⟩ := Res.unbind h
      cases m with
      | none => cases h; exact .none _ _
      | some m => cases h; owned r.shared
  | plunger p =>
    have h : collectPlunger E fuel o vpx p = .ok c := h
    unfold collectPlunger at h
    split at h
    · cases h
      exact .none _ _
    · obtain ⟨x, hx, h⟩ := Res.unbind h
      cases h
      owned p.shared
  | primitive p =>
    have h : collectPrimitive E o vpx p = .ok c := h
    unfold collectPrimitive at h
    dsimp only at h
    split at h
    · cases h
      exact .none _ _
    · split at h
      · cases h; exact .none _ _
      · cases h
      · cases h; exact .none _ _
      · cases h
        refine .inr ⟨p.shared, ⟨rfl, rfl⟩, rfl, ?_⟩
        intro m hm
        rw [List.mem_singleton.mp hm]
        rfl
  | hitTarget t =>
    have h : Except.ok (collectHitTarget E o t) = .ok c := h
    cases h
    unfold collectHitTarget
    split
    · exact .none _ _
    · split
      · exact .none _ _
      · owned t.shared
  | flasher f =>
    have h : Except.ok (collectFlasher E o vpx f) = .ok c := h
    cases h
    unfold collectFlasher
    split
    · exact .none _ _
    · split
      · exact .none _ _
      · owned f.shared
  | ball b =>
    have h : Except.ok (collectBall E o vpx b) = .ok c := h
    cases h
    unfold collectBall
    owned b.shared
  | _ =>
    cases h
    exact .none _ _

/-- every light of the table has a group -/
theorem collectLight_group {E : GltfEnv} {fuel : Nat} {o : GltfOptions} {vpx : VPX} {l : Light} {c : Collected}
    (h : collectItem E fuel o vpx (.light l) = .ok c) (hb : l.is_backglass = false) :
    l.name ∈ c.groups.map (·.name) := by
  have h : collectLight E fuel o vpx l = .ok c := h
  unfold collectLight at h
  rw [if_neg (by simp [hb])] at h
  obtain ⟨x, hx, h⟩ := Res.unbind h
  cases h
  simp [itemGroup, GameItemEnum.name]

end
end Vpin
