import Verif.Props.GltfShapes
import Verif.Props.RampHeight
import Verif.Props.Compat
import Verif.Spec.GltfOpacity
/-!
# C79: which primitives let light through
-/
namespace Vpin
open Arith

theorem namesAgree_iff {a b : Str} : eqIgnoreAsciiCase a b = true ↔ NamesAgree a b := by
  simp [eqIgnoreAsciiCase, NamesAgree]

theorem find_first {α : Type} {P : α → Prop} {p : α → Bool} (hp : ∀ x, p x = true ↔ P x) {l : List α} {x : α} :
    l.find? p = some x ↔ IsFirst P l x := by
  rw [List.find?_eq_some_iff_append]
  unfold IsFirst
  rw [hp]
  refine and_congr_right fun _ => exists_congr fun a => exists_congr fun b => and_congr_right fun _ =>
    forall_congr' fun y => imp_congr_right fun _ => ?_
  rw [← hp]
  simp

theorem low_bit (b : UInt8) : (b &&& 1 != 0) = true ↔ b.toNat % 2 = 1 := by
  have key : ∀ k : Fin 256, ((UInt8.ofNat k &&& 1 != 0) = true ↔ k.val % 2 = 1) := by decide +kernel
  have := key ⟨b.toNat, b.toNat_lt⟩
  simpa using this

theorem opacity_spec (g : GameData) (name : Str) (a : Bool) (x : F32) :
    materialOpacity g name = some (a, x) ↔ HasOpacity g name a x := by
  unfold materialOpacity HasOpacity
  cases name with
  | nil => simp
  | cons ch name =>
    simp only [List.isEmpty_cons, Bool.false_eq_true, if_false, ne_eq, reduceCtorEq, not_false_eq_true, true_and]
    generalize hn : ch :: name = nm
    clear hn
    cases h : (g.materials.getD []).find? (fun m => eqIgnoreAsciiCase m.name nm) with
    | some m =>
      have hf := (find_first (P := fun m : Material => NamesAgree m.name nm) (fun _ => namesAgree_iff)).1 h
      constructor
      · intro e
        cases e
        exact Or.inl ⟨m, hf, rfl, rfl⟩
      · rintro (⟨m', hf', rfl, rfl⟩ | ⟨hno, -⟩)
        · have := (find_first (P := fun m : Material => NamesAgree m.name nm) (fun _ => namesAgree_iff)).2 hf'
          rw [h] at this
          cases this
          rfl
        · exact absurd hf.1 (hno m (List.mem_of_find?_eq_some h))
    | none =>
      have hno : ∀ m ∈ g.materials.getD [], ¬ NamesAgree m.name nm := by
        intro m hm hh
        exact List.find?_eq_none.1 h m hm (namesAgree_iff.2 hh)
      dsimp only
      constructor
      · intro e
        obtain ⟨m, hm, e⟩ := Option.map_eq_some_iff.1 e
        cases e
        exact Or.inr ⟨hno, m, (find_first (P := fun m : SaveMaterial => NamesAgree m.name nm) (fun _ => namesAgree_iff)).1 hm,
          low_bit _, rfl⟩
      · rintro (⟨m, ⟨hm, b, c, e, -⟩, -, -⟩ | ⟨-, m, hf, ha, rfl⟩)
        · exact absurd hm (hno m (by rw [e]; simp))
        · rw [(find_first (P := fun m : SaveMaterial => NamesAgree m.name nm) (fun _ => namesAgree_iff)).2 hf]
          simp only [Option.map_some, Option.some.injEq, Prod.mk.injEq, and_true]
          rw [Bool.eq_iff_iff, ha, low_bit]

section
variable [Arith]

/-- what a mesh lets through of the light below it -/
def lightThrough (v : Option F32) : Option F32 :=
  v.bind fun v => if v <ᶠ f32One then some ((f32One -ᶠ v) *ᶠ 0x3e99999a) else none

/-- **C79**: a primitive of a table of version 1080 or later lets through what it says. In an older table the
playfield lets no light through, and neither does a primitive whose material has its opacity switched off
or 1; another primitive lets through what it says. -/
theorem C79_light_through_primitives (ho : StrictlyOrdered) {E : GltfEnv} {fuel : Nat} {o : GltfOptions} {vpx : VPX}
    {p : Primitive} {c : Collected} (h : collectItem E fuel o vpx (.primitive p) = .ok c) (m : NamedMesh)
    (hm : m ∈ c.meshes) :
    (¬ Old vpx.version → m.transmission = lightThrough p.disable_lighting_below) ∧
    (Old vpx.version → NamedPlayfield p → m.transmission = none) ∧
    (Old vpx.version → ∀ a x, HasOpacity vpx.gamedata p.material a x → a = false ∨ isOne x → m.transmission = none) ∧
    (Old vpx.version → ¬ NamedPlayfield p → (∀ a x, HasOpacity vpx.gamedata p.material a x → a = true ∧ ¬ isOne x) →
      m.transmission = lightThrough p.disable_lighting_below) := by
  have key := C79_light_through h m hm
  dsimp only at key
  have one : ∀ {x : F32}, isOne x ↔ x = 0x3f800000 := by
    intro x
    unfold isOne
    rw [← UInt32.toNat_inj]
    exact Iff.rfl
  have none_of : ∀ {v : Option F32}, v = some 0x3f800000 →
      m.transmission = v.bind (fun v => if v <ᶠ f32One then some ((f32One -ᶠ v) *ᶠ 0x3e99999a) else none) →
      m.transmission = none := by
    rintro v rfl e
    rw [e]
    exact if_neg (ho.irrefl _)
  unfold primitiveDisableLightingBelow at key
  refine ⟨?_, ?_, ?_, ?_⟩
  · intro hv
    rw [show isPre108 vpx.version = false from (isPre108_false _).2 hv] at key
    simpa [lightThrough] using key
  · intro hv hp
    rw [(isPre108_iff _).2 hv, (isPlayfield_iff _).2 hp] at key
    exact none_of rfl key
  · intro hv a x hx hax
    rw [(isPre108_iff _).2 hv, (opacity_spec _ _ _ _).2 hx] at key
    refine none_of ?_ key
    rw [if_pos rfl]
    split
    · rfl
    · dsimp only
      rw [if_pos]
      rcases hax with rfl | hax
      · rfl
      · rw [one.1 hax]; simp
  · intro hv hp hx
    rw [(isPre108_iff _).2 hv, show p.isPlayfield = false by
      rw [← Bool.not_eq_true, isPlayfield_iff]; exact hp] at key
    cases hmo : materialOpacity vpx.gamedata p.material with
    | none => rw [hmo] at key; simpa [lightThrough] using key
    | some ax =>
      obtain ⟨a, x⟩ := ax
      obtain ⟨rfl, h1⟩ := hx a x ((opacity_spec _ _ _ _).1 hmo)
      rw [hmo] at key
      rw [one] at h1
      simpa [lightThrough, h1] using key

end

/-! ### Concrete cases -/

attribute [local instance] ieeeExact

/-- a table of version 1070 with an old material `m` of opacity 0.5, whose byte is `b` -/
def opacityTable (b : UInt8) : VPX :=
  { sceneTable with
    version := ⟨1070⟩
    gamedata := { sceneTable.gamedata with
      materials := none
      materials_old := [{ SaveMaterial.jsonBase with name := "M".toList, opacity := 0x3f000000, opacity_active_edge_alpha := b }] } }

/-- a prism of that material, half of the light from below of which is disabled -/
def dimPrism : Primitive :=
  { Primitive.default with
    name := "p".toList, sides := 3, material := "m".toList, disable_lighting_below := some 0x3f000000 }

/-- the lowest bit decides whether it lets light through -/
example : Old (opacityTable 2).version ∧ ¬ NamedPlayfield dimPrism ∧
    HasOpacity (opacityTable 2).gamedata dimPrism.material false 0x3f000000 ∧
    HasOpacity (opacityTable 1).gamedata dimPrism.material true 0x3f000000 ∧
    ((collectItem gltfSample 10 .default (opacityTable 2) (.primitive dimPrism)).toOption.map fun c =>
      c.meshes.map (·.transmission)) = some [none] ∧
    ((collectItem gltfSample 10 .default (opacityTable 1) (.primitive dimPrism)).toOption.map fun c =>
      c.meshes.map (·.transmission)) = some [some 0x3e19999a] := by
  refine ⟨by unfold Old; decide, by unfold NamedPlayfield; decide, (opacity_spec _ _ _ _).1 (by decide +kernel), (opacity_spec _ _ _ _).1 (by decide +kernel),
    by decide +kernel, by decide +kernel⟩

end Vpin
