import Verif.Props.GltfItems
import Verif.Model.ItemMesh
/-
C74, C79: what an item says about being visible, and whether the exporters write it.
-/
namespace Vpin
open Arith Scene

section
variable [Arith]

/-- **C79**: an item that says it is not visible gives nothing, unless hidden items are asked for. Lights are not
asked, and neither is the playfield of a table made before version 1080, which is always visible. -/
theorem C79_not_visible {E : GltfEnv} {fuel : Nat} {o : GltfOptions} {vpx : VPX} {item : GameItemEnum}
    (ho : o.exportInvisible = false) (hv : item.is_visible = some false) (hl : ∀ l, item ≠ .light l)
    (hp : ∀ p, item = .primitive p → 1080 ≤ vpx.version.number ∨ p.isPlayfield = false) :
    collectItem E fuel o vpx item = .ok { meshes := [], groups := [], playfield := false } := by
  cases item
  case light l => exact absurd rfl (hl l)
  case primitive p =>
    have hv : p.is_visible = false := Option.some.inj hv
    have h1 : primitiveIsVisible p vpx.version = false := by
      unfold primitiveIsVisible isPre108
      rcases hp p rfl with h | h
      · rw [if_neg, hv]
        simp only [Bool.and_eq_true, decide_eq_true_eq, not_and]
        intro h'
        exact absurd (UInt32.lt_of_lt_of_le h' h) (UInt32.lt_irrefl _)
      · rw [h, Bool.and_false, hv]; rfl
    show collectPrimitive E o vpx p = _
    unfold collectPrimitive
    dsimp only
    rw [h1, ho]
    rfl
  case wall w =>
    have hv : (w.is_top_bottom_visible || w.is_side_visible) = false := Option.some.inj hv
    rw [Bool.or_eq_false_iff] at hv
    show collectWall E fuel o vpx w = _
    unfold collectWall
    rw [ho, hv.1, hv.2]
    rfl
  case ramp x =>
    have hv : x.is_visible = false := Option.some.inj hv
    show collectRamp E fuel o vpx x = _
    unfold collectRamp; rw [ho, hv]; rfl
  case rubber x =>
    have hv : x.is_visible = false := Option.some.inj hv
    show collectRubber E fuel o vpx x = _
    unfold collectRubber; rw [ho, hv]; rfl
  case flasher x =>
    have hv : x.is_visible = false := Option.some.inj hv
    show Except.ok (collectFlasher E o vpx x) = _
    unfold collectFlasher; rw [ho, hv]; rfl
  case flipper x =>
    have hv : x.is_visible = false := Option.some.inj hv
    show Except.ok (collectFlipper E o x) = _
    unfold collectFlipper; rw [ho, hv]; rfl
  case spinner x =>
    have hv : x.is_visible = false := Option.some.inj hv
    show collectSpinner E fuel o vpx x = _
    unfold collectSpinner; rw [ho, hv]; rfl
  case hitTarget x =>
    have hv : x.is_visible = false := Option.some.inj hv
    show Except.ok (collectHitTarget E o x) = _
    unfold collectHitTarget; rw [ho, hv]; rfl
  case gate x =>
    have hv : x.is_visible = false := Option.some.inj hv
    show collectGate E fuel o vpx x = _
    unfold collectGate; rw [ho, hv]; rfl
  case trigger x =>
    have hv : x.is_visible = false := Option.some.inj hv
    show collectTrigger E fuel o vpx x = _
    unfold collectTrigger; rw [ho, hv]; rfl
  case plunger x =>
    have hv : x.is_visible = false := Option.some.inj hv
    show collectPlunger E fuel o vpx x = _
    unfold collectPlunger; rw [ho, hv]; rfl
  case reel x => rfl
  all_goals cases hv

/-- **C74**: an item that says it is not visible has no shape in the OBJ file, but for flippers, gates, spinners and
targets, and for the playfield of a table made before version 1080. -/
theorem C74_not_visible {Z : Zlib} {S : Stock} {fuel : Nat} {o : ObjExportOptions} {vpx : VPX} {item : GameItemEnum}
    {bs : List Block} (h : itemBlocks Z S fuel o vpx item = .ok bs) (hv : item.is_visible = some false)
    (hk : (∀ x, item ≠ .flipper x) ∧ (∀ x, item ≠ .gate x) ∧ (∀ x, item ≠ .spinner x) ∧ ∀ x, item ≠ .hitTarget x)
    (hp : ∀ p, item = .primitive p → 1080 ≤ vpx.version.number ∨ p.isPlayfield = false) : bs = [] := by
  cases item
  case flipper x => exact absurd rfl (hk.1 x)
  case gate x => exact absurd rfl (hk.2.1 x)
  case spinner x => exact absurd rfl (hk.2.2.1 x)
  case hitTarget x => exact absurd rfl (hk.2.2.2 x)
  case primitive p =>
    have hv : p.is_visible = false := Option.some.inj hv
    have h1 : primitiveIsVisible p vpx.version = false := by
      unfold primitiveIsVisible isPre108
      rcases hp p rfl with h | h
      · rw [if_neg, hv]
        simp only [Bool.and_eq_true, decide_eq_true_eq, not_and]
        intro h'
        exact absurd (UInt32.lt_of_lt_of_le h' h) (UInt32.lt_irrefl _)
      · rw [h, Bool.and_false, hv]; rfl
    rw [C74_hidden_primitive (.inl h1)] at h
    cases h; rfl
  case wall w =>
    have hv : (w.is_top_bottom_visible || w.is_side_visible) = false := Option.some.inj hv
    rw [Bool.or_eq_false_iff] at hv
    have h : wallBlocks fuel _ o.extract_textures w = .ok bs := h
    unfold wallBlocks at h
    obtain ⟨m, -, h⟩ := Res.unbind h
    rw [hv.1, hv.2] at h
    cases m with
    | none => cases h; rfl
    | some m => cases h; rfl
  case ramp x =>
    have hv : x.is_visible = false := Option.some.inj hv
    have h : rampBlocks fuel _ _ x = .ok bs := h
    unfold rampBlocks at h; rw [hv] at h; cases h; rfl
  case rubber x =>
    have hv : x.is_visible = false := Option.some.inj hv
    have h : rubberBlocks fuel _ x = .ok bs := h
    unfold rubberBlocks at h; rw [hv] at h; cases h; rfl
  case trigger x =>
    have hv : x.is_visible = false := Option.some.inj hv
    have h : triggerBlocks S fuel _ x = .ok bs := h
    unfold triggerBlocks at h; rw [hv] at h; cases h; rfl
  case plunger x =>
    have hv : x.is_visible = false := Option.some.inj hv
    have h : (if o.include_plunger then plungerBlocks S fuel vpx.gameitems x else .ok []) = .ok bs := h
    split at h
    · unfold plungerBlocks at h; rw [hv] at h; cases h; rfl
    · cases h; rfl
  all_goals first | (cases h; rfl) | cases hv

/-- **C74**: flippers, gates, spinners and targets are in the OBJ file whether they are visible or not. -/
theorem C74_hidden_kept (A : ItemFns) (T : MeshTables) {Z : Zlib} {fuel : Nat} {o : ObjExportOptions} {vpx : VPX} :
    let blocks := itemBlocks Z (itemStock A T fuel).toStock fuel o vpx
    (∀ x v, blocks (.flipper { x with is_visible := v }) = blocks (.flipper x)) ∧
    (∀ x v, blocks (.gate { x with is_visible := v }) = blocks (.gate x)) ∧
    (∀ x v, blocks (.spinner { x with is_visible := v }) = blocks (.spinner x)) ∧
    (∀ x v, blocks (.hitTarget { x with is_visible := v }) = blocks (.hitTarget x)) :=
  ⟨fun _ _ => rfl, fun _ _ => rfl, fun _ _ => rfl, fun _ _ => rfl⟩

/-- a hidden ramp and a wall with neither top nor side say so; a wall with a side does not, and a kicker does not say -/
example (k : Kicker) : GameItemEnum.is_visible (.ramp { cornerRampOf .TwoWire with is_visible := false }) = some false ∧
    GameItemEnum.is_visible (.wall { notchedWall with is_top_bottom_visible := false, is_side_visible := false }) =
      some false ∧
    GameItemEnum.is_visible (.wall { notchedWall with is_top_bottom_visible := false, is_side_visible := true }) =
      some true ∧
    GameItemEnum.is_visible (.kicker k) = none := ⟨rfl, rfl, rfl, rfl⟩

end
end Vpin
