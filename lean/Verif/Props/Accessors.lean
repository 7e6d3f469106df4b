import Verif.Model.GameItem
import Verif.Spec.GameItem
import Verif.Lemmas.PartGroup
/-!
# C38, C45, C47: questions about items
-/
namespace Vpin

/-! ### C38: part group order -/

/-- item `i` of the list names a part group, and no part group of that name stands at or before
position `i` -/
def MisplacedAt (items : List GameItemEnum) (i : Nat) (item : GameItemEnum) (group : Str) : Prop :=
  items[i]? = some item ∧ item.part_group_name = some group ∧
  ∀ j pg, j ≤ i → items[j]? = some (.partGroup pg) → pg.name ≠ group

/-- C38: the warnings are exactly those about an item naming a part group that is not the name of a
part group at or before its own position. -/
theorem C38_warnings_exact (items : List GameItemEnum) (w : Str) :
    w ∈ validatePartGroupOrder items ↔
      ∃ i item group, MisplacedAt items i item group ∧ w = partGroupWarning i item group := by
  unfold validatePartGroupOrder MisplacedAt
  rw [partGroupLoop_mem]
  simp [and_assoc]

/-- C38: no warnings at all iff every named part group stands before (or at) the item naming it. -/
theorem C38_no_warning_iff (items : List GameItemEnum) :
    validatePartGroupOrder items = [] ↔
      ∀ (i : Nat) (item : GameItemEnum) (group : Str), items[i]? = some item → item.part_group_name = some group →
        ∃ j pg, j ≤ i ∧ items[j]? = some (.partGroup pg) ∧ pg.name = group := by
  rw [List.eq_nil_iff_forall_not_mem]
  simp only [C38_warnings_exact, MisplacedAt]
  constructor
  · intro h i item group h1 h2
    apply Classical.byContradiction
    intro hn
    exact h _ ⟨i, item, group, ⟨h1, h2, fun j pg hj hx hg => hn ⟨j, pg, hj, hx, hg⟩⟩, rfl⟩
  · rintro h w ⟨i, item, group, ⟨h1, h2, h3⟩, -⟩
    obtain ⟨j, pg, hj, hx, hg⟩ := h i item group h1 h2
    exact h3 j pg hj hx hg

/-- C38: the number of warnings is the number of misplaced items (so none is repeated). -/
theorem C38_warning_count (items : List GameItemEnum) :
    ∃ is : List Nat, is.length = (validatePartGroupOrder items).length ∧ is.Nodup ∧
      ∀ i, i ∈ is ↔ ∃ item group, MisplacedAt items i item group := by
  obtain ⟨is, h1, h2, h3⟩ := partGroupLoop_indices items 0 []
  exact ⟨is, h1, h2, fun i => by rw [h3]; simp [MisplacedAt]⟩

/-- a list with a misplaced item: a timer naming the group before the group -/
example : MisplacedAt
    [.timer { Timer.sample with shared := { Timer.sample.shared with part_group_name := some ['g'] } },
     .partGroup { PartGroup.sample with name := ['g'] }] 0
    (.timer { Timer.sample with shared := { Timer.sample.shared with part_group_name := some ['g'] } })
    ['g'] := by
  refine ⟨rfl, rfl, ?_⟩
  intro j pg hj hx
  obtain rfl : j = 0 := by omega
  cases hx

/-! ### C45: references -/

/-- the fields of each kind that name an image -/
def GameItemEnum.imageFields : GameItemEnum → List (Option Str)
  | .ball x => [some x.image, some x.image_decal]
  | .decal x => [some x.image]
  | .flasher x => [some x.image_a, some x.image_b, x.image_src_link, x.light_map]
  | .flipper x => [x.image]
  | .hitTarget x => [some x.image]
  | .light x => [some x.image]
  | .plunger x => [some x.image]
  | .primitive x => [some x.image, x.normal_map, x.light_map]
  | .ramp x => [some x.image]
  | .reel x => [some x.image]
  | .rubber x => [some x.image]
  | .spinner x => [some x.image]
  | .wall x => [some x.image, some x.side_image]
  | _ => []

/-- the fields of each kind that name a material -/
def GameItemEnum.materialFields : GameItemEnum → List (Option Str)
  | .bumper x => [some x.cap_material, some x.base_material, x.ring_material, some x.socket_material]
  | .decal x => [some x.material]
  | .flipper x => [some x.material, some x.rubber_material]
  | .gate x => [some x.material]
  | .hitTarget x => [some x.material]
  | .kicker x => [some x.material]
  | .plunger x => [some x.material]
  | .primitive x => [some x.material]
  | .ramp x => [some x.material]
  | .rubber x => [some x.material]
  | .spinner x => [some x.material]
  | .trigger x => [some x.material]
  | .wall x => [some x.top_material, some x.side_material, some x.slingshot_material]
  | _ => []

/-- the fields of each kind that name a physics material -/
def GameItemEnum.physicsFields : GameItemEnum → List (Option Str)
  | .hitTarget x => [x.physics_material]
  | .primitive x => [x.physics_material]
  | .ramp x => [x.physics_material]
  | .rubber x => [x.physics_material]
  | .wall x => [x.physics_material]
  | _ => []

theorem mem_pushNonempty (s t : Str) : s ∈ pushNonempty t ↔ s ≠ [] ∧ t = s := by
  unfold pushNonempty
  by_cases h : t.isEmpty = true
  · rw [if_pos h]
    rw [List.isEmpty_iff] at h
    subst h
    simp [eq_comm]
  · rw [if_neg h, List.mem_singleton]
    rw [List.isEmpty_iff] at h
    constructor
    · rintro rfl; exact ⟨h, rfl⟩
    · rintro ⟨-, rfl⟩; rfl

theorem mem_pushOpt (s : Str) (t : Option Str) : s ∈ pushOpt t ↔ s ≠ [] ∧ t = some s := by
  cases t with
  | none => simp [pushOpt]
  | some t => rw [Option.some.injEq]; exact mem_pushNonempty s t

/-- C45: the images reported by an item are exactly the non-empty ones among its image fields. -/
theorem C45_images (g : GameItemEnum) (s : Str) :
    s ∈ g.images ↔ s ≠ [] ∧ some s ∈ g.imageFields := by
  cases g <;>
    simp only [GameItemEnum.images, GameItemEnum.imageFields, List.mem_append, mem_pushNonempty,
      mem_pushOpt, List.mem_cons, List.not_mem_nil, or_false, and_false, Option.some.injEq, ← and_or_left,
      eq_comm, or_assoc]

/-- C45: the materials reported by an item are exactly the non-empty ones among its material
fields. -/
theorem C45_materials (g : GameItemEnum) (s : Str) :
    s ∈ g.materials ↔ s ≠ [] ∧ some s ∈ g.materialFields := by
  cases g <;>
    simp only [GameItemEnum.materials, GameItemEnum.materialFields, List.mem_append, mem_pushNonempty,
      mem_pushOpt, List.mem_cons, List.not_mem_nil, or_false, and_false, Option.some.injEq, ← and_or_left,
      eq_comm, or_assoc]

/-- C45: the physics material reported by an item is the non-empty one of its physics material
field, if it has one. -/
theorem C45_physics_material (g : GameItemEnum) (s : Str) :
    g.physics_material = some s ↔ s ≠ [] ∧ some s ∈ g.physicsFields := by
  have key : ∀ o : Option Str, o.filter (fun v => !v.isEmpty) = some s ↔ s ≠ [] ∧ some s ∈ [o] := by
    intro o
    rw [Option.filter_eq_some_iff, List.mem_singleton, and_comm, eq_comm (a := o)]
    simp
  have none' : (none : Option Str).filter (fun v => !v.isEmpty) = some s ↔
      s ≠ [] ∧ some s ∈ ([] : List (Option Str)) := by simp
  cases g <;> first | exact key _ | exact none'

/-- a flasher with one empty and one non-empty image, of which one is reported -/
example : (GameItemEnum.flasher { Flasher.sample with
      image_a := [], image_b := ['b'], image_src_link := none, light_map := some [] }).images
    = [['b']] := by decide

/-! ### C47: lock and layer -/

/-- A property of items that can be set: what was set is what is read, setting what is there changes
nothing, and of two settings the last one counts. Together these say that setting changes nothing
but the property. -/
structure Settable {A : Type} (get : GameItemEnum → A) (set : GameItemEnum → A → GameItemEnum)
    (supports : GameItemEnum → Prop) : Prop where
  get_set : ∀ g a, supports g → get (set g a) = a
  set_get : ∀ g, set g (get g) = g
  set_set : ∀ g a b, set (set g a) b = set g b
  kind : ∀ g a, (set g a).kind = g.kind

/-- C47: the layer name, for every kind. -/
theorem C47_layer_name :
    Settable GameItemEnum.editor_layer_name GameItemEnum.set_editor_layer_name
      (fun g => g.kind ≠ none) where
  get_set g a h := by cases g <;> first | rfl | exact absurd rfl h
  set_get g := by cases g <;> rfl
  set_set g a b := by cases g <;> rfl
  kind g a := by cases g <;> rfl

/-- C47: the layer visibility, for every kind. -/
theorem C47_layer_visibility :
    Settable GameItemEnum.editor_layer_visibility GameItemEnum.set_editor_layer_visibility
      (fun g => g.kind ≠ none) where
  get_set g a h := by cases g <;> first | rfl | exact absurd rfl h
  set_get g := by cases g <;> rfl
  set_set g a b := by cases g <;> rfl
  kind g a := by cases g <;> rfl

/-- C47: the layer number, for every kind but part groups (which have no layer). -/
theorem C47_layer :
    Settable GameItemEnum.editor_layer GameItemEnum.set_editor_layer
      (fun g => g.kind ≠ none ∧ g.kind ≠ some .partGroup) where
  get_set g a h := by cases g <;> first | rfl | exact absurd rfl h.1 | exact absurd rfl h.2
  set_get g := by cases g <;> rfl
  set_set g a b := by cases g <;> rfl
  kind g a := by cases g <;> rfl

/-- C47: the lock flag. It can be set but, except for light sequencers (where it is optional), not
removed: setting it to nothing leaves it alone. -/
theorem C47_locked (g : GameItemEnum) :
    (g.kind ≠ none → ∀ b, (g.set_locked (some b)).is_locked = some b) ∧
    g.set_locked g.is_locked = g ∧
    (g.kind ≠ some .lightSequencer → g.set_locked none = g) ∧
    (g.kind = some .lightSequencer → (g.set_locked none).is_locked = none) ∧
    (∀ a b, (g.set_locked a).set_locked (some b) = g.set_locked (some b)) ∧
    (∀ a, (g.set_locked a).kind = g.kind) := by
  refine ⟨fun h b => ?_, ?_, fun h => ?_, fun h => ?_, fun a b => ?_, fun a => ?_⟩
  · cases g <;> first | rfl | exact absurd rfl h
  · cases g <;> rfl
  · cases g <;> first | rfl | exact absurd rfl h
  · cases g <;> first | rfl | cases h
  · cases g <;> cases a <;> rfl
  · cases g <;> cases a <;> rfl

/-- C47: the four are independent of each other and of the name. -/
theorem C47_independent (g : GameItemEnum) (l : Option Bool) (n : Option Str) (y : Option UInt32)
    (v : Option Bool) :
    (g.set_locked l).editor_layer_name = g.editor_layer_name ∧
    (g.set_locked l).editor_layer = g.editor_layer ∧
    (g.set_locked l).editor_layer_visibility = g.editor_layer_visibility ∧
    (g.set_locked l).name = g.name ∧
    (g.set_editor_layer_name n).is_locked = g.is_locked ∧
    (g.set_editor_layer_name n).editor_layer = g.editor_layer ∧
    (g.set_editor_layer_name n).editor_layer_visibility = g.editor_layer_visibility ∧
    (g.set_editor_layer_name n).name = g.name ∧
    (g.set_editor_layer y).is_locked = g.is_locked ∧
    (g.set_editor_layer y).editor_layer_name = g.editor_layer_name ∧
    (g.set_editor_layer y).editor_layer_visibility = g.editor_layer_visibility ∧
    (g.set_editor_layer y).name = g.name ∧
    (g.set_editor_layer_visibility v).is_locked = g.is_locked ∧
    (g.set_editor_layer_visibility v).editor_layer_name = g.editor_layer_name ∧
    (g.set_editor_layer_visibility v).editor_layer = g.editor_layer ∧
    (g.set_editor_layer_visibility v).name = g.name := by
  cases g <;> cases l <;> (refine ⟨?_, ?_, ?_, ?_, ?_, ?_, ?_, ?_, ?_, ?_, ?_, ?_, ?_, ?_, ?_, ?_⟩ <;> rfl)

/-- items of every kind satisfy the hypotheses -/
example : (GameItemEnum.lightSequencer .sample).kind ≠ none ∧
    (GameItemEnum.lightSequencer .sample).kind ≠ some .partGroup := by decide

end Vpin
