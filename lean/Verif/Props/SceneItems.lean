import Verif.Props.ObjExport
/-
C74: what the items of a table give in the OBJ export.
-/
namespace Vpin
open Arith Scene

section
variable [Arith]

/-- **C74**: an item stands on the first wall or ramp with the name of its surface, at the height of the top of the wall
or of the ramp at its centre; without one, on the playfield. -/
theorem C74_height (fuel : Nat) (surface : Str) (x y : F32) (items : List GameItemEnum) :
    surfaceHeight fuel surface x y items =
      match standsOn items surface with
      | some (.wall w) => .ok w.height_top
      | some (.ramp r) => getRampSurfaceHeight fuel r x y
      | _ => .ok 0 := by
  cases hs : surface with
  | nil => cases items <;> simp [surfaceHeight, standsOn]
  | cons c cs =>
    unfold standsOn
    rw [if_neg (by simp)]
    induction items with
    | nil => rfl
    | cons i rest ih =>
      have hc : ¬ (c :: cs).isEmpty = true := by simp
      rw [List.find?_cons]
      cases i
      case wall w =>
        rw [surfaceHeight, if_neg hc]
        by_cases hw : eqIgnoreAsciiCase w.name (c :: cs) = true
        · rw [if_pos hw]
          have hw' : (w.name.map asciiLower == (c :: cs).map asciiLower) = true := hw
          dsimp only
          rw [hw']
        · rw [if_neg hw]
          have hw' : (w.name.map asciiLower == (c :: cs).map asciiLower) = false := Bool.not_eq_true _ |>.mp hw
          dsimp only
          rw [hw']
          exact ih
      case ramp r =>
        rw [surfaceHeight, if_neg hc]
        by_cases hw : eqIgnoreAsciiCase r.name (c :: cs) = true
        · rw [if_pos hw]
          have hw' : (r.name.map asciiLower == (c :: cs).map asciiLower) = true := hw
          dsimp only
          rw [hw']
        · rw [if_neg hw]
          have hw' : (r.name.map asciiLower == (c :: cs).map asciiLower) = false := Bool.not_eq_true _ |>.mp hw
          dsimp only
          rw [hw']
          exact ih
      all_goals exact (if_neg hc).trans ih

/-- name, material and texture of a shape -/
def label (b : Block) : Str × Option Str × Option Str := (b.name, b.material, b.texture)

/-- the same of a part of an item -/
def partLabel (item : GameItemEnum) (p : Part) : Str × Option Str × Option Str :=
  (item.name ++ p.suffix.toList, p.material, p.texture)

omit [Arith] in
theorem nonEmpty_named (s : Str) : nonEmpty s = named s := by
  cases s <;> simp [nonEmpty, named]

omit [Arith] in
theorem partBlock_label {name : Str} {suffix : String} {m : Option RawMesh} {t : Vec3} {mat tex : Option Str} :
    ((partBlock name suffix m t mat tex).map label).Sublist [(name ++ suffix.toList, mat, tex)] := by
  cases m with
  | none => exact List.nil_sublist _
  | some m => exact List.Sublist.refl _

omit [Arith] in
theorem parts_label {l l' : List Block} {p q : List (Str × Option Str × Option Str)} (h : (l.map label).Sublist p)
    (h' : (l'.map label).Sublist q) : ((l ++ l').map label).Sublist (p ++ q) := by
  rw [List.map_append]
  exact h.append h'

/-- **C74**: the shapes of an item are parts it has, in their order and none twice, each with its name, its material and
its texture. Hidden items and items without a mesh give none. -/
theorem C74_parts {Z : Zlib} {S : Stock} {fuel : Nat} {o : ObjExportOptions} {vpx : VPX} {item : GameItemEnum}
    {bs : List Block} (h : itemBlocks Z S fuel o vpx item = .ok bs) :
    (bs.map label).Sublist ((partsOf vpx.gamedata o.extract_textures item).map (partLabel item)) := by
  cases item
  case primitive p =>
    have h : primitiveBlocks Z vpx p = .ok bs := h
    unfold primitiveBlocks at h
    split at h
    · cases h; exact List.nil_sublist _
    · split at h
      · cases h; exact List.nil_sublist _
      · cases h
      · cases h; exact List.nil_sublist _
      · cases h
        have hp : p.isPlayfield = (p.name.map asciiLower == "playfield_mesh".toList) := by
          have e : "playfield_mesh".toList.map asciiLower = "playfield_mesh".toList := by decide
          unfold Primitive.isPlayfield eqIgnoreAsciiCase
          rw [e]
        simp only [nonEmpty_named, partsOf]
        by_cases hn : p.name.map asciiLower = "playfield_mesh".toList
        · rw [if_pos hn, if_pos (hp.trans (beq_iff_eq.2 hn)), if_pos (hp.trans (beq_iff_eq.2 hn))]
          simp [label, partLabel, GameItemEnum.name]
        · rw [if_neg hn, if_neg (fun h => hn (beq_iff_eq.1 (hp.symm.trans h))),
            if_neg (fun h => hn (beq_iff_eq.1 (hp.symm.trans h)))]
          simp [label, partLabel, GameItemEnum.name]
  case wall w =>
    have h : wallBlocks fuel _ o.extract_textures w = .ok bs := h
    unfold wallBlocks at h
    obtain ⟨m, -, h⟩ := Res.unbind h
    cases m with
    | none => cases h; exact List.nil_sublist _
    | some m =>
      cases h
      simp only [partsOf]
      cases w.is_top_bottom_visible <;> cases w.is_side_visible <;> cases m.top <;> cases m.side <;>
        cases o.extract_textures <;>
        simp [label, partLabel, nonEmpty_named, GameItemEnum.name]
  case ramp r =>
    have h : rampBlocks fuel _ vpx.gamedata r = .ok bs := h
    unfold rampBlocks at h
    simp only [partsOf]
    cases hv : r.is_visible with
    | false => rw [hv] at h; cases h; exact List.nil_sublist _
    | true =>
      rw [hv] at h
      obtain ⟨m, -, h⟩ := Res.unbind h
      cases m with
      | none => cases h; exact List.nil_sublist _
      | some m => cases h; simp [label, partLabel, nonEmpty_named, GameItemEnum.name]
  case rubber r =>
    have h : rubberBlocks fuel vpx.gamedata r = .ok bs := h
    unfold rubberBlocks at h
    simp only [partsOf]
    cases hv : r.is_visible with
    | false => rw [hv] at h; cases h; exact List.nil_sublist _
    | true =>
      rw [hv] at h
      obtain ⟨m, -, h⟩ := Res.unbind h
      cases m with
      | none => cases h; exact List.nil_sublist _
      | some m => cases h; simp [label, partLabel, GameItemEnum.name]
  case bumper b =>
    have h : bumperBlocks S fuel vpx.gameitems b = .ok bs := h
    unfold bumperBlocks at h
    obtain ⟨_, -, h⟩ := Res.unbind h
    cases h
    exact parts_label (parts_label (parts_label partBlock_label partBlock_label) partBlock_label) partBlock_label
  case flipper f =>
    have h : Except.ok (flipperBlocks S f) = Except.ok bs := h
    unfold flipperBlocks at h
    cases hs : S.flipper f with
    | none => rw [hs] at h; cases h; exact List.nil_sublist _
    | some x =>
      rw [hs] at h
      cases h
      have e : f.image.bind nonEmpty = f.image.bind named := by
        cases f.image with
        | none => rfl
        | some i => exact nonEmpty_named i
      rw [e]
      exact parts_label partBlock_label partBlock_label
  case gate g =>
    have h : gateBlocks S fuel vpx.gameitems g = .ok bs := h
    unfold gateBlocks at h
    obtain ⟨_, -, h⟩ := Res.unbind h
    cases hs : S.gate g with
    | none => rw [hs] at h; cases h; exact List.nil_sublist _
    | some x =>
      rw [hs] at h
      cases h
      exact parts_label partBlock_label partBlock_label
  case kicker k =>
    have h : kickerBlocks S fuel vpx.gameitems k = .ok bs := h
    unfold kickerBlocks at h
    simp only [partsOf]
    split at h
    · cases h; exact List.nil_sublist _
    · rename_i hk
      rw [if_neg hk]
      obtain ⟨_, -, h⟩ := Res.unbind h
      cases h
      exact parts_label partBlock_label partBlock_label
  case spinner s =>
    have h : spinnerBlocks S fuel vpx.gameitems s = .ok bs := h
    unfold spinnerBlocks at h
    obtain ⟨_, -, h⟩ := Res.unbind h
    cases h
    exact parts_label partBlock_label partBlock_label
  case hitTarget t =>
    have h : Except.ok (hitTargetBlocks S t) = Except.ok bs := h
    unfold hitTargetBlocks at h
    cases h
    rw [nonEmpty_named]
    exact partBlock_label
  case trigger t =>
    have h : triggerBlocks S fuel vpx.gameitems t = .ok bs := h
    unfold triggerBlocks at h
    simp only [partsOf]
    cases hv : t.is_visible with
    | false => rw [hv] at h; cases h; exact List.nil_sublist _
    | true =>
      rw [hv] at h
      obtain ⟨_, -, h⟩ := Res.unbind h
      cases h
      exact partBlock_label
  case plunger p =>
    have h : (if o.include_plunger then plungerBlocks S fuel vpx.gameitems p else .ok []) = .ok bs := h
    unfold plungerBlocks at h
    simp only [partsOf]
    split at h
    · cases hv : p.is_visible with
      | false => rw [hv] at h; cases h; exact List.nil_sublist _
      | true =>
        rw [hv] at h
        obtain ⟨_, -, h⟩ := Res.unbind h
        cases h
        rw [nonEmpty_named, nonEmpty_named]
        exact parts_label (parts_label (parts_label (parts_label partBlock_label partBlock_label) partBlock_label)
          partBlock_label) partBlock_label
    · cases h; exact List.nil_sublist _
  all_goals (cases h; exact List.nil_sublist _)

/-- a part is where it was put -/
theorem partBlock_place {name : Str} {suffix : String} {m : Option RawMesh} {t : Vec3} {mat tex : Option Str} :
    ∀ b ∈ partBlock name suffix m t mat tex, b.translation = t := by
  intro b hb
  cases m with
  | none => cases hb
  | some m => cases List.mem_singleton.1 hb; rfl

/-- **C74**: bumpers, gates, kickers, spinners, triggers and plungers are at their centres, at the height of what they
stand on and, for gates, spinners and plungers, their own height above it. -/
theorem C74_standing {Z : Zlib} {S : Stock} {fuel : Nat} {o : ObjExportOptions} {vpx : VPX} {item : GameItemEnum}
    {bs : List Block} (h : itemBlocks Z S fuel o vpx item = .ok bs) {x y : F32} {surface : Str} {above : Option F32}
    (hs : standing item = some (x, y, surface, above)) (hb : bs ≠ []) :
    ∃ z, surfaceHeight fuel surface x y vpx.gameitems = .ok z ∧
      ∀ b ∈ bs, b.translation = ⟨x, y, match above with | none => z | some d => z +ᶠ d⟩ := by
  cases item <;> unfold standing at hs <;> cases hs
  case bumper b =>
    have h : bumperBlocks S fuel vpx.gameitems b = .ok bs := h
    unfold bumperBlocks at h
    obtain ⟨z, hz, h⟩ := Res.unbind h
    cases h
    refine ⟨z, hz, ?_⟩
    intro b hb
    simp only [List.mem_append] at hb
    rcases hb with ((hb | hb) | hb) | hb <;> exact partBlock_place b hb
  case gate g =>
    have h : gateBlocks S fuel vpx.gameitems g = .ok bs := h
    unfold gateBlocks at h
    obtain ⟨z, hz, h⟩ := Res.unbind h
    cases hs : S.gate g with
    | none => rw [hs] at h; cases h; exact absurd rfl hb
    | some x =>
      rw [hs] at h
      cases h
      refine ⟨z, hz, ?_⟩
      intro b hb
      simp only [List.mem_append] at hb
      rcases hb with hb | hb <;> exact partBlock_place b hb
  case kicker k =>
    have h : kickerBlocks S fuel vpx.gameitems k = .ok bs := h
    unfold kickerBlocks at h
    split at h
    · cases h; exact absurd rfl hb
    · obtain ⟨z, hz, h⟩ := Res.unbind h
      cases h
      refine ⟨z, hz, ?_⟩
      intro b hb
      simp only [List.mem_append] at hb
      rcases hb with hb | hb <;> exact partBlock_place b hb
  case spinner s =>
    have h : spinnerBlocks S fuel vpx.gameitems s = .ok bs := h
    unfold spinnerBlocks at h
    obtain ⟨z, hz, h⟩ := Res.unbind h
    cases h
    refine ⟨z, hz, ?_⟩
    intro b hb
    simp only [List.mem_append] at hb
    rcases hb with hb | hb <;> exact partBlock_place b hb
  case trigger t =>
    have h : triggerBlocks S fuel vpx.gameitems t = .ok bs := h
    unfold triggerBlocks at h
    split at h
    · cases h; exact absurd rfl hb
    · obtain ⟨z, hz, h⟩ := Res.unbind h
      cases h
      exact ⟨z, hz, partBlock_place⟩
  case plunger p =>
    have h : (if o.include_plunger then plungerBlocks S fuel vpx.gameitems p else .ok []) = .ok bs := h
    unfold plungerBlocks at h
    split at h
    · split at h
      · cases h; exact absurd rfl hb
      · obtain ⟨z, hz, h⟩ := Res.unbind h
        cases h
        refine ⟨z, hz, ?_⟩
        intro b hb
        simp only [List.mem_append] at hb
        rcases hb with (((hb | hb) | hb) | hb) | hb <;> exact partBlock_place b hb
    · cases h; exact absurd rfl hb

/-- **C74**: a visible primitive with a mesh gives one shape: its triangles, and its vertices where `C73` puts them. -/
theorem C74_primitive {Z : Zlib} {S : Stock} {fuel : Nat} {o : ObjExportOptions} {vpx : VPX} {p : Primitive}
    {m : Mesh} (hv : primitiveIsVisible p vpx.version = true) (hm : effectivePrimitiveMesh Z p = .ok (some m)) :
    ∃ b, itemBlocks Z S fuel o vpx (.primitive p) = .ok [b] ∧ b.faces = m.faces ∧ b.translation = ⟨0, 0, 0⟩ ∧
      b.vertices = m.vertices.map fun w => primitiveVertex p.worldMatrix w.vertex := by
  have h : itemBlocks Z S fuel o vpx (.primitive p) = primitiveBlocks Z vpx p := rfl
  rw [h]
  unfold primitiveBlocks
  rw [hv, hm]
  exact ⟨_, rfl, rfl, rfl, rfl⟩

/-- **C74**: a primitive that is not visible gives none, and neither does one whose mesh cannot be read. -/
theorem C74_hidden_primitive {Z : Zlib} {S : Stock} {fuel : Nat} {o : ObjExportOptions} {vpx : VPX} {p : Primitive}
    (hv : primitiveIsVisible p vpx.version = false ∨ effectivePrimitiveMesh Z p = .ok none ∨
      effectivePrimitiveMesh Z p = .error .io) :
    itemBlocks Z S fuel o vpx (.primitive p) = .ok [] := by
  have h : itemBlocks Z S fuel o vpx (.primitive p) = primitiveBlocks Z vpx p := rfl
  rw [h]
  unfold primitiveBlocks
  by_cases hh : primitiveIsVisible p vpx.version = true
  · rcases hv with hv | hv | hv
    · rw [hv] at hh; cases hh
    · rw [hv, hh]; rfl
    · rw [hv, hh]; rfl
  · rw [Bool.not_eq_true _ |>.mp hh]; rfl

/-- **C74**: the mesh of a visible ramp (`C66`), made with the table's bounds and level of detail, is its shape. -/
theorem C74_ramp {Z : Zlib} {S : Stock} {fuel : Nat} {o : ObjExportOptions} {vpx : VPX} {r : Ramp} {m : GenMesh}
    (hv : r.is_visible = true)
    (hm : buildRampMesh fuel r ⟨vpx.gamedata.left, vpx.gamedata.top, vpx.gamedata.right, vpx.gamedata.bottom⟩
      vpx.gamedata.detailLevel ((materialByName vpx.gamedata r.material).any (·.opacity_active)) = .ok (some m)) :
    ∃ b, itemBlocks Z S fuel o vpx (.ramp r) = .ok [b] ∧ b.vertices = m.vertices ∧ b.faces = m.tris.map Tri.face ∧
      b.translation = ⟨0, 0, 0⟩ := by
  have h : itemBlocks Z S fuel o vpx (.ramp r) = rampBlocks fuel
    ⟨vpx.gamedata.left, vpx.gamedata.top, vpx.gamedata.right, vpx.gamedata.bottom⟩ vpx.gamedata r := rfl
  rw [h]
  unfold rampBlocks
  rw [hv]
  have e : ¬ (!true) = true := by simp
  rw [if_neg e]
  dsimp only
  rw [hm]
  exact ⟨_, rfl, rfl, rfl, rfl⟩

/-- **C74**: the mesh of a visible rubber (`C64`) is its shape, moved by the point its vertices are relative to. -/
theorem C74_rubber {Z : Zlib} {S : Stock} {fuel : Nat} {o : ObjExportOptions} {vpx : VPX} {r : Rubber} {m : GenMesh}
    {c : Vec3} (hv : r.is_visible = true)
    (hm : buildRubberMesh fuel r vpx.gamedata.detailLevel = .ok (some (m, c))) :
    ∃ b, itemBlocks Z S fuel o vpx (.rubber r) = .ok [b] ∧ b.vertices = m.vertices ∧ b.faces = m.tris.map Tri.face ∧
      b.translation = c := by
  have h : itemBlocks Z S fuel o vpx (.rubber r) = rubberBlocks fuel vpx.gamedata r := rfl
  rw [h]
  unfold rubberBlocks
  rw [hv]
  have e : ¬ (!true) = true := by simp
  rw [if_neg e, hm]
  exact ⟨_, rfl, rfl, rfl, rfl⟩

/-- **C74**: of a wall its visible parts (`C62`) are shapes: the side and the top each on their own, or, both visible and
without textures, the side and the top in one. -/
theorem C74_wall {Z : Zlib} {S : Stock} {fuel : Nat} {o : ObjExportOptions} {vpx : VPX} {w : Wall} {m : WallMeshes}
    {bs : List Block}
    (hm : buildWallMeshes fuel w ⟨vpx.gamedata.left, vpx.gamedata.top, vpx.gamedata.right, vpx.gamedata.bottom⟩ =
      .ok (some m)) (h : itemBlocks Z S fuel o vpx (.wall w) = .ok bs) :
    (∀ b ∈ bs, b.translation = ⟨0, 0, 0⟩) ∧
    (∀ top, m.top = some top → w.is_top_bottom_visible = true → w.is_side_visible = false →
      bs.map (fun b => (b.vertices, b.faces)) = [(top.vertices, top.tris.map Tri.face)]) ∧
    (∀ side, m.side = some side → w.is_side_visible = true → w.is_top_bottom_visible = false →
      bs.map (fun b => (b.vertices, b.faces)) = [(side.vertices, side.tris.map Tri.face)]) ∧
    (∀ top side, m.top = some top → m.side = some side → w.is_side_visible = true → w.is_top_bottom_visible = true →
      (o.extract_textures = true → bs.map (fun b => (b.vertices, b.faces)) =
        [(side.vertices, side.tris.map Tri.face), (top.vertices, top.tris.map Tri.face)]) ∧
      (o.extract_textures = false → bs.map (fun b => (b.vertices, b.faces)) =
        [(side.vertices ++ top.vertices, side.tris.map Tri.face ++ top.tris.map fun t => ⟨t.1 + side.vertices.length,
          t.2.1 + side.vertices.length, t.2.2 + side.vertices.length⟩)])) := by
  have h : wallBlocks fuel _ o.extract_textures w = .ok bs := h
  unfold wallBlocks at h
  rw [hm] at h
  cases h
  refine ⟨?_, ?_, ?_, ?_⟩
  · intro b hb
    revert hb
    cases w.is_top_bottom_visible <;> cases w.is_side_visible <;> cases m.top <;> cases m.side <;>
      cases o.extract_textures <;> intro hb <;> simp at hb
    all_goals first
      | (rcases hb with rfl | rfl <;> rfl)
      | (cases hb; rfl)
  · intro top ht hv hs
    rw [ht, hv, hs]
    rfl
  · intro side ht hv hs
    rw [ht, hv, hs]
    cases m.top <;> rfl
  · intro top side ht hs hv hv'
    rw [ht, hs, hv, hv']
    refine ⟨?_, ?_⟩ <;> intro ho <;> rw [ho]
    · rfl
    · simp [combineMeshes, GenMesh.raw, Tri.face, Function.comp_def]

end

/-! ### Concrete cases -/

section
attribute [local instance] ieeeExact

/-- a spinner on a wall of height 40 whose name differs in case, behind a primitive of that name -/
def standingTable : VPX :=
  { sceneTable with
    gameitems :=
      [.primitive { Primitive.default with name := "ledge".toList, sides := 3, material := "m".toList },
       .wall { Wall.default with name := "Ledge".toList, height_top := 0x42200000 },
       .wall { Wall.default with name := "LEDGE".toList, height_top := 0 },
       .spinner { Spinner.default with
         name := "S".toList, surface := "ledgE".toList, center := ⟨0x3f800000, 0x40000000⟩, height := 0x41200000 }] }

/-- the shapes of the items, one after the other -/
def standingShapes : List Block :=
  standingTable.gameitems.flatMap fun i =>
    ((itemBlocks plainZlib exampleStock 10 .default standingTable i).toOption).getD []

example : standingShapes.map label =
    [("ledge".toList, some "m".toList, none), ("SPlate".toList, none, none)] := by decide +kernel

example : standingShapes.map (·.translation) =
    [⟨0, 0, 0⟩, ⟨0x3f800000, 0x40000000, 0x42480000⟩] := by decide +kernel

example : standing (.spinner { Spinner.default with surface := "ledgE".toList, height := 0x41200000 }) =
    some (0, 0, "ledgE".toList, some 0x41200000) := rfl

end
end Vpin
