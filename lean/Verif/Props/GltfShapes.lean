import Verif.Props.GltfItems
import Verif.Spec.GltfShapes
/-
C79: the shapes, colours and places of the meshes of items.
-/
namespace Vpin
open Arith Scene

section
variable [Arith]

/-- name, triangles, stretch and colour of a mesh of the scene -/
def gltfForm (m : NamedMesh) : Str × List Vertex × List Face × Option Vec3 × Option Rgba :=
  (m.name, m.vertices, m.faces, m.scale, m.tint)

/-- the same of the parts of an item that are there -/
def gltfForms (name : Str) (l : List GltfShape) : List (Str × List Vertex × List Face × Option Vec3 × Option Rgba) :=
  l.filterMap fun s => s.mesh.map fun r => (name ++ s.suffix.toList, r.vertices, r.faces, s.scale, s.tint)

/-- **C79**: an item that can be seen on the table has in the scene exactly the meshes computed for its parts, under its
name and the name of the part, unchanged, and with the colours of `gltfShapes`; only the wire of a gate is stretched, by
the length of the gate. -/
theorem C79_shapes {E : GltfEnv} {fuel : Nat} {o : GltfOptions} {vpx : VPX} {item : GameItemEnum} {c : Collected}
    (h : collectItem E fuel o vpx item = .ok c) (ho : ownMesh item = false) (hv : onTable item = true) :
    c.meshes.map gltfForm = gltfForms item.name (gltfShapes E.S vpx item) := by
  cases item with
  | primitive | wall | ramp | rubber => cases ho
  | flasher f =>
    have hv : f.is_visible = true := hv
    cases h
    show (collectFlasher E o vpx f).meshes.map _ = _
    unfold collectFlasher
    rw [hv, if_neg (by simp)]
    dsimp only [gltfShapes, GameData.dims]
    cases E.S.flasher f ⟨vpx.gamedata.left, vpx.gamedata.top, vpx.gamedata.right, vpx.gamedata.bottom⟩ <;> rfl
  | flipper f =>
    have hv : f.is_visible = true := hv
    cases h
    show (collectFlipper E o f).meshes.map _ = _
    unfold collectFlipper
    rw [hv, if_neg (by simp), if_pos rfl]
    dsimp only [gltfShapes]
    cases E.S.flipper f with
    | none => rfl
    | some m => obtain ⟨_, _, _ | _⟩ := m <;> rfl
  | bumper b =>
    obtain ⟨z, -, h⟩ := Res.unbind (show collectBumper E fuel o vpx b = _ from h)
    cases h
    dsimp only [gltfShapes]
    obtain ⟨_ | _, _ | _, _ | _, _ | _⟩ := E.S.bumper b <;> rfl
  | spinner s =>
    have hv : s.is_visible = true := hv
    have h : collectSpinner E fuel o vpx s = .ok c := h
    unfold collectSpinner at h
    rw [hv, if_neg (by simp)] at h
    obtain ⟨z, -, h⟩ := Res.unbind h
    cases h
    dsimp only [gltfShapes]
    obtain ⟨_ | _, _⟩ := E.S.spinner s <;> rfl
  | hitTarget t =>
    have hv : t.is_visible = true := hv
    cases h
    show (collectHitTarget E o t).meshes.map _ = _
    unfold collectHitTarget
    rw [hv, if_neg (by simp), if_pos rfl]
    dsimp only [gltfShapes]
    cases E.S.hitTarget t <;> rfl
  | gate g =>
    have hv : g.is_visible = true := hv
    have h : collectGate E fuel o vpx g = .ok c := h
    unfold collectGate at h
    rw [hv, if_neg (by simp)] at h
    obtain ⟨z, -, h⟩ := Res.unbind h
    rw [if_pos rfl] at h
    dsimp only [gltfShapes]
    cases hg : E.S.gate g with
    | none => rw [hg] at h; cases h; rfl
    | some m =>
      rw [hg] at h
      obtain ⟨_ | _, _⟩ := m <;> (cases h; rfl)
  | trigger t =>
    have hv : t.is_visible = true := hv
    have h : collectTrigger E fuel o vpx t = .ok c := h
    unfold collectTrigger at h
    rw [hv, if_neg (by simp)] at h
    obtain ⟨z, -, h⟩ := Res.unbind h
    rw [if_pos rfl] at h
    dsimp only [gltfShapes]
    cases hg : E.S.trigger t with
    | none => rw [hg] at h; cases h; rfl
    | some m => rw [hg] at h; cases h; rfl
  | light l =>
    have hv : l.is_backglass = false := by simpa [onTable] using hv
    have h : collectLight E fuel o vpx l = .ok c := h
    unfold collectLight at h
    rw [hv, if_neg (by simp)] at h
    obtain ⟨z, -, h⟩ := Res.unbind h
    cases h
    dsimp only [gltfShapes, GameData.dims]
    obtain ⟨b, hb⟩ : ∃ b, b = if lightShowBulbMesh l vpx.version = true then E.S.light l else none := ⟨_, rfl⟩
    rw [← hb]
    rcases b with _ | ⟨_ | _, _ | _⟩ <;>
      cases E.S.insert l ⟨vpx.gamedata.left, vpx.gamedata.top, vpx.gamedata.right, vpx.gamedata.bottom⟩ <;> rfl
  | plunger p =>
    have hv : p.is_visible = true := hv
    have h : collectPlunger E fuel o vpx p = .ok c := h
    unfold collectPlunger at h
    rw [hv, if_neg (by simp)] at h
    obtain ⟨z, -, h⟩ := Res.unbind h
    rw [if_pos rfl] at h
    cases h
    dsimp only [gltfShapes]
    obtain ⟨_ | _, _ | _, _ | _, _ | _, _ | _⟩ := E.S.plunger p <;> rfl
  | kicker k =>
    have hv : k.kicker_type ≠ .Invisible := by simpa [onTable] using hv
    have h : collectKicker E fuel o vpx k = .ok c := h
    unfold collectKicker at h
    rw [if_neg hv] at h
    obtain ⟨z, -, h⟩ := Res.unbind h
    cases h
    have e : kickerTint k.kicker_type = kickerColor k.kicker_type := by cases k.kicker_type <;> rfl
    dsimp only [gltfShapes]
    rw [e]
    obtain ⟨_ | _, _ | _⟩ := E.S.kicker k <;> rfl
  | decal d =>
    obtain ⟨z, -, h⟩ := Res.unbind (show collectDecal E fuel o vpx d = _ from h)
    dsimp only [gltfShapes]
    cases hg : E.S.decal d with
    | none => rw [hg] at h; cases h; rfl
    | some m => rw [hg] at h; cases h; rfl
  | ball b =>
    cases h
    show [gltfForm _] = [_]
    unfold gltfForm
    dsimp only [NamedMesh.of, colorTint, colorPart, tintOf]
    congr 5
    by_cases hc : b.color.r = 255 ∧ b.color.g = 255 ∧ b.color.b = 255
    · rw [if_pos hc, if_pos (by simp [hc])]
    · rw [if_neg hc, if_neg (by simpa [and_assoc] using hc)]
      rfl
  | _ => cases h; rfl

/-- **C79**: flashers and flippers are at the centres that were computed with their meshes, hit targets and balls at their
positions, with y and z exchanged and in the units of the export. -/
theorem C79_centre {E : GltfEnv} {fuel : Nat} {o : GltfOptions} {vpx : VPX} {item : GameItemEnum} {c : Collected}
    {p : Vec3} (h : collectItem E fuel o vpx item = .ok c) (hp : ownCentre E.S vpx item = some p) :
    ∀ m ∈ c.meshes, m.translation = some ⟨p.x *ᶠ o.units.scale, p.z *ᶠ o.units.scale, p.y *ᶠ o.units.scale⟩ := by
  intro m hm
  cases item with
  | flasher f =>
    cases h
    have hm : m ∈ (collectFlasher E o vpx f).meshes := hm
    unfold collectFlasher at hm
    split at hm
    · cases hm
    · obtain ⟨x, hx, rfl⟩ := Option.map_eq_some_iff.1 hp
      unfold GameData.dims at hm
      rw [hx] at hm
      dsimp only at hm
      obtain ⟨_, _, rfl⟩ := mem_partMesh hm
      rfl
  | flipper f =>
    cases h
    have hm : m ∈ (collectFlipper E o f).meshes := hm
    unfold collectFlipper at hm
    split at hm
    · cases hm
    · obtain ⟨x, hx, rfl⟩ := Option.map_eq_some_iff.1 hp
      rw [hx] at hm
      cases hf : f.is_visible with
      | false => rw [hf] at hm; cases hm
      | true =>
        rw [hf] at hm
        rcases List.mem_append.1 hm with hm | hm <;>
          (obtain ⟨_, _, rfl⟩ := mem_partMesh hm; rfl)
  | hitTarget t =>
    cases h
    cases hp
    have hm : m ∈ (collectHitTarget E o t).meshes := hm
    unfold collectHitTarget at hm
    split at hm
    · cases hm
    · split at hm
      · cases hm
      · dsimp only at hm
        obtain ⟨_, _, rfl⟩ := mem_partMesh hm
        rfl
  | ball b =>
    cases h
    cases hp
    rw [List.mem_singleton.1 hm]
    rfl
  | _ => cases hp

/-- **C79**: the insert of a light is at the centre of its shape, 0.1 (bits `0x3dcccccd`) above the surface it stands on. -/
theorem C79_insert {E : GltfEnv} {fuel : Nat} {o : GltfOptions} {vpx : VPX} {l : Light} {c : Collected}
    (h : collectItem E fuel o vpx (.light l) = .ok c) (m : NamedMesh) (hm : m ∈ c.meshes)
    (hn : m.name = l.name ++ "_insert".toList) : ∃ r p z, E.S.insert l ⟨vpx.gamedata.left, vpx.gamedata.top,
        vpx.gamedata.right, vpx.gamedata.bottom⟩ = some (r, p) ∧
      surfaceHeight fuel l.surface l.center.x l.center.y vpx.gameitems = .ok z ∧ m.translation = some
        ⟨p.x *ᶠ o.units.scale, (z +ᶠ 0x3dcccccd) *ᶠ o.units.scale, p.y *ᶠ o.units.scale⟩ := by
  have h : collectLight E fuel o vpx l = .ok c := h
  unfold collectLight at h
  split at h
  · cases h; cases hm
  · obtain ⟨z, hz, h⟩ := Res.unbind h
    cases h
    rcases List.mem_append.mp hm with hm | hm
    · rcases List.mem_append.mp hm with hm | hm <;>
        (obtain ⟨x, _, rfl⟩ := mem_partMesh hm
         exact absurd (List.append_cancel_left hn) (by decide))
    · unfold GameData.dims at hm
      cases hi : E.S.insert l ⟨vpx.gamedata.left, vpx.gamedata.top, vpx.gamedata.right, vpx.gamedata.bottom⟩ with
      | none => rw [hi] at hm; cases hm
      | some rp =>
        rw [hi] at hm
        obtain ⟨x, _, rfl⟩ := mem_partMesh hm
        exact ⟨_, _, z, rfl, hz, rfl⟩

/-- **C79**: walls and primitives whose lighting from below is disabled by less than 1 let light through, 0.3 times (bits
`0x3e99999a`) of the rest. Nothing else does. -/
theorem C79_light_through {E : GltfEnv} {fuel : Nat} {o : GltfOptions} {vpx : VPX} {item : GameItemEnum} {c : Collected}
    (h : collectItem E fuel o vpx item = .ok c) : ∀ m ∈ c.meshes, m.transmission =
      ((match item with
        | .wall w => w.disable_lighting_below
        | .primitive p => primitiveDisableLightingBelow p (materialOpacity vpx.gamedata p.material) vpx.version
        | _ => none).bind fun v => if v <ᶠ f32One then some ((f32One -ᶠ v) *ᶠ 0x3e99999a) else none) := by
  intro m hm
  cases item with
  | primitive p =>
    have h : collectPrimitive E o vpx p = .ok c := h
    unfold collectPrimitive at h
    dsimp only at h
    split at h
    · cases h; cases hm
    · split at h
      · cases h; cases hm
      · cases h
      · cases h; cases hm
      · cases h
        rw [List.mem_singleton.1 hm]
        dsimp only
        cases primitiveDisableLightingBelow p (materialOpacity vpx.gamedata p.material) vpx.version <;> rfl
  | wall w =>
    have h : collectWall E fuel o vpx w = .ok c := h
    unfold collectWall at h
    split at h
    · cases h; cases hm
    · obtain ⟨b, _, h⟩ := Res.unbind h
      cases b with
      | none => cases h; cases hm
      | some b =>
        cases h
        rcases List.mem_append.1 hm with hm | hm <;>
          (obtain ⟨_, _, rfl⟩ := mem_partMesh hm
           dsimp only
           cases w.disable_lighting_below <;> rfl)
  | ball b => cases h; rw [List.mem_singleton.1 hm]; rfl
  | ramp x =>
    have h : collectRamp E fuel o vpx x = .ok c := h
    unfold collectRamp at h
    split at h
    · cases h; cases hm
    · obtain ⟨_, _, h⟩ := Res.unbind h
      split at h
      · cases h; cases hm
      · cases h
        dsimp only at hm
        obtain ⟨_, _, rfl⟩ := mem_partMesh hm
        rfl
  | rubber x =>
    have h : collectRubber E fuel o vpx x = .ok c := h
    unfold collectRubber at h
    split at h
    · cases h; cases hm
    · obtain ⟨_, _, h⟩ := Res.unbind h
      split at h
      · cases h; cases hm
      · cases h
        dsimp only at hm
        obtain ⟨_, _, rfl⟩ := mem_partMesh hm
        rfl
  | flasher x =>
    cases h
    have hm : m ∈ (collectFlasher E o vpx x).meshes := hm
    unfold collectFlasher at hm
    split at hm
    · cases hm
    · split at hm
      · cases hm
      · dsimp only at hm
        obtain ⟨_, _, rfl⟩ := mem_partMesh hm
        rfl
  | flipper x =>
    cases h
    have hm : m ∈ (collectFlipper E o x).meshes := hm
    unfold collectFlipper at hm
    split at hm
    · cases hm
    · split at hm
      · cases hm
      · dsimp only at hm
        rcases List.mem_append.1 hm with hm | hm
        · obtain ⟨_, _, rfl⟩ := mem_partMesh hm
          rfl
        · obtain ⟨_, _, rfl⟩ := mem_partMesh hm
          rfl
  | bumper x =>
    have h : collectBumper E fuel o vpx x = .ok c := h
    unfold collectBumper at h
    obtain ⟨_, _, h⟩ := Res.unbind h
    cases h
    rcases List.mem_append.1 hm with hm | hm
    · rcases List.mem_append.1 hm with hm | hm
      · rcases List.mem_append.1 hm with hm | hm
        · obtain ⟨_, _, rfl⟩ := mem_partMesh hm
          rfl
        · obtain ⟨_, _, rfl⟩ := mem_partMesh hm
          rfl
      · obtain ⟨_, _, rfl⟩ := mem_partMesh hm
        rfl
    · obtain ⟨_, _, rfl⟩ := mem_partMesh hm
      rfl
  | spinner x =>
    have h : collectSpinner E fuel o vpx x = .ok c := h
    unfold collectSpinner at h
    split at h
    · cases h; cases hm
    · obtain ⟨_, _, h⟩ := Res.unbind h
      cases h
      rcases List.mem_append.1 hm with hm | hm
      · obtain ⟨_, _, rfl⟩ := mem_partMesh hm
        rfl
      · obtain ⟨_, _, rfl⟩ := mem_partMesh hm
        rfl
  | hitTarget x =>
    cases h
    have hm : m ∈ (collectHitTarget E o x).meshes := hm
    unfold collectHitTarget at hm
    split at hm
    · cases hm
    · split at hm
      · cases hm
      · dsimp only at hm
        obtain ⟨_, _, rfl⟩ := mem_partMesh hm
        rfl
  | gate x =>
    have h : collectGate E fuel o vpx x = .ok c := h
    unfold collectGate at h
    split at h
    · cases h; cases hm
    · obtain ⟨_, _, h⟩ := Res.unbind h
      split at h
      · cases h; cases hm
      · cases h
        rcases List.mem_append.1 hm with hm | hm
        · obtain ⟨_, _, rfl⟩ := mem_partMesh hm
          rfl
        · obtain ⟨_, _, rfl⟩ := mem_partMesh hm
          rfl
  | trigger x =>
    have h : collectTrigger E fuel o vpx x = .ok c := h
    unfold collectTrigger at h
    split at h
    · cases h; cases hm
    · obtain ⟨_, _, h⟩ := Res.unbind h
      split at h
      · cases h; cases hm
      · cases h
        dsimp only at hm
        obtain ⟨_, _, rfl⟩ := mem_partMesh hm
        rfl
  | plunger x =>
    have h : collectPlunger E fuel o vpx x = .ok c := h
    unfold collectPlunger at h
    split at h
    · cases h; cases hm
    · obtain ⟨_, _, h⟩ := Res.unbind h
      cases h
      rcases List.mem_append.1 hm with hm | hm
      · rcases List.mem_append.1 hm with hm | hm
        · rcases List.mem_append.1 hm with hm | hm
          · rcases List.mem_append.1 hm with hm | hm
            · obtain ⟨_, _, rfl⟩ := mem_partMesh hm
              rfl
            · obtain ⟨_, _, rfl⟩ := mem_partMesh hm
              rfl
          · obtain ⟨_, _, rfl⟩ := mem_partMesh hm
            rfl
        · obtain ⟨_, _, rfl⟩ := mem_partMesh hm
          rfl
      · obtain ⟨_, _, rfl⟩ := mem_partMesh hm
        rfl
  | kicker x =>
    have h : collectKicker E fuel o vpx x = .ok c := h
    unfold collectKicker at h
    split at h
    · cases h; cases hm
    · obtain ⟨_, _, h⟩ := Res.unbind h
      cases h
      rcases List.mem_append.1 hm with hm | hm
      · obtain ⟨_, _, rfl⟩ := mem_partMesh hm
        rfl
      · obtain ⟨_, _, rfl⟩ := mem_partMesh hm
        rfl
  | decal x =>
    have h : collectDecal E fuel o vpx x = .ok c := h
    unfold collectDecal at h
    obtain ⟨_, _, h⟩ := Res.unbind h
    split at h
    · cases h; cases hm
    · cases h
      dsimp only at hm
      obtain ⟨_, _, rfl⟩ := mem_partMesh hm
      rfl
  | light x =>
    have h : collectLight E fuel o vpx x = .ok c := h
    unfold collectLight at h
    split at h
    · cases h; cases hm
    · obtain ⟨_, _, h⟩ := Res.unbind h
      cases h
      rcases List.mem_append.1 hm with hm | hm
      · rcases List.mem_append.1 hm with hm | hm
        · obtain ⟨_, _, rfl⟩ := mem_partMesh hm
          rfl
        · obtain ⟨_, _, rfl⟩ := mem_partMesh hm
          rfl
      · split at hm
        · cases hm
        · obtain ⟨_, _, rfl⟩ := mem_partMesh hm
          rfl
  | _ => cases h; cases hm

/-- **C79**: only the mesh of a ball is made of the metal of balls. Unless the ball or the table says that pictures on balls
are decals, the picture of the ball, or else that of the table, is where it is rough. -/
theorem C79_ball {E : GltfEnv} {fuel : Nat} {o : GltfOptions} {vpx : VPX} {item : GameItemEnum} {c : Collected}
    (h : collectItem E fuel o vpx item = .ok c) : ∀ m ∈ c.meshes, (m.isBall, m.roughnessTexture) =
      match (generalizing := false) item with
      | .ball b => (true, if b.decal_mode || vpx.gamedata.ball_decal_mode then none else
          named (if b.image_decal = [] then vpx.gamedata.ball_image_front else b.image_decal))
      | _ => (false, none) := by
  intro m hm
  cases item with
  | primitive p =>
    have h : collectPrimitive E o vpx p = .ok c := h
    unfold collectPrimitive at h
    dsimp only at h
    split at h
    · cases h; cases hm
    · split at h
      · cases h; cases hm
      · cases h
      · cases h; cases hm
      · cases h
        rw [List.mem_singleton.1 hm]
        rfl
  | wall w =>
    have h : collectWall E fuel o vpx w = .ok c := h
    unfold collectWall at h
    split at h
    · cases h; cases hm
    · obtain ⟨b, _, h⟩ := Res.unbind h
      cases b with
      | none => cases h; cases hm
      | some b =>
        cases h
        rcases List.mem_append.1 hm with hm | hm <;>
          (obtain ⟨_, _, rfl⟩ := mem_partMesh hm
           rfl)
  | ball b =>
    cases h
    rw [List.mem_singleton.1 hm]
    show (true, if (b.decal_mode || vpx.gamedata.ball_decal_mode) = true then none else
      if b.image_decal.isEmpty = true then nonEmpty vpx.gamedata.ball_image_front else some b.image_decal) =
      (true, if (b.decal_mode || vpx.gamedata.ball_decal_mode) = true then none else
        named (if b.image_decal = [] then vpx.gamedata.ball_image_front else b.image_decal))
    generalize (b.decal_mode || vpx.gamedata.ball_decal_mode) = d
    cases d
    · cases b.image_decal
      · cases vpx.gamedata.ball_image_front <;> rfl
      · rfl
    · rfl
  | ramp x =>
    have h : collectRamp E fuel o vpx x = .ok c := h
    unfold collectRamp at h
    split at h
    · cases h; cases hm
    · obtain ⟨_, _, h⟩ := Res.unbind h
      split at h
      · cases h; cases hm
      · cases h
        dsimp only at hm
        obtain ⟨_, _, rfl⟩ := mem_partMesh hm
        rfl
  | rubber x =>
    have h : collectRubber E fuel o vpx x = .ok c := h
    unfold collectRubber at h
    split at h
    · cases h; cases hm
    · obtain ⟨_, _, h⟩ := Res.unbind h
      split at h
      · cases h; cases hm
      · cases h
        dsimp only at hm
        obtain ⟨_, _, rfl⟩ := mem_partMesh hm
        rfl
  | flasher x =>
    cases h
    have hm : m ∈ (collectFlasher E o vpx x).meshes := hm
    unfold collectFlasher at hm
    split at hm
    · cases hm
    · split at hm
      · cases hm
      · dsimp only at hm
        obtain ⟨_, _, rfl⟩ := mem_partMesh hm
        rfl
  | flipper x =>
    cases h
    have hm : m ∈ (collectFlipper E o x).meshes := hm
    unfold collectFlipper at hm
    split at hm
    · cases hm
    · split at hm
      · cases hm
      · dsimp only at hm
        rcases List.mem_append.1 hm with hm | hm
        · obtain ⟨_, _, rfl⟩ := mem_partMesh hm
          rfl
        · obtain ⟨_, _, rfl⟩ := mem_partMesh hm
          rfl
  | bumper x =>
    have h : collectBumper E fuel o vpx x = .ok c := h
    unfold collectBumper at h
    obtain ⟨_, _, h⟩ := Res.unbind h
    cases h
    rcases List.mem_append.1 hm with hm | hm
    · rcases List.mem_append.1 hm with hm | hm
      · rcases List.mem_append.1 hm with hm | hm
        · obtain ⟨_, _, rfl⟩ := mem_partMesh hm
          rfl
        · obtain ⟨_, _, rfl⟩ := mem_partMesh hm
          rfl
      · obtain ⟨_, _, rfl⟩ := mem_partMesh hm
        rfl
    · obtain ⟨_, _, rfl⟩ := mem_partMesh hm
      rfl
  | spinner x =>
    have h : collectSpinner E fuel o vpx x = .ok c := h
    unfold collectSpinner at h
    split at h
    · cases h; cases hm
    · obtain ⟨_, _, h⟩ := Res.unbind h
      cases h
      rcases List.mem_append.1 hm with hm | hm
      · obtain ⟨_, _, rfl⟩ := mem_partMesh hm
        rfl
      · obtain ⟨_, _, rfl⟩ := mem_partMesh hm
        rfl
  | hitTarget x =>
    cases h
    have hm : m ∈ (collectHitTarget E o x).meshes := hm
    unfold collectHitTarget at hm
    split at hm
    · cases hm
    · split at hm
      · cases hm
      · dsimp only at hm
        obtain ⟨_, _, rfl⟩ := mem_partMesh hm
        rfl
  | gate x =>
    have h : collectGate E fuel o vpx x = .ok c := h
    unfold collectGate at h
    split at h
    · cases h; cases hm
    · obtain ⟨_, _, h⟩ := Res.unbind h
      split at h
      · cases h; cases hm
      · cases h
        rcases List.mem_append.1 hm with hm | hm
        · obtain ⟨_, _, rfl⟩ := mem_partMesh hm
          rfl
        · obtain ⟨_, _, rfl⟩ := mem_partMesh hm
          rfl
  | trigger x =>
    have h : collectTrigger E fuel o vpx x = .ok c := h
    unfold collectTrigger at h
    split at h
    · cases h; cases hm
    · obtain ⟨_, _, h⟩ := Res.unbind h
      split at h
      · cases h; cases hm
      · cases h
        dsimp only at hm
        obtain ⟨_, _, rfl⟩ := mem_partMesh hm
        rfl
  | plunger x =>
    have h : collectPlunger E fuel o vpx x = .ok c := h
    unfold collectPlunger at h
    split at h
    · cases h; cases hm
    · obtain ⟨_, _, h⟩ := Res.unbind h
      cases h
      rcases List.mem_append.1 hm with hm | hm
      · rcases List.mem_append.1 hm with hm | hm
        · rcases List.mem_append.1 hm with hm | hm
          · rcases List.mem_append.1 hm with hm | hm
            · obtain ⟨_, _, rfl⟩ := mem_partMesh hm
              rfl
            · obtain ⟨_, _, rfl⟩ := mem_partMesh hm
              rfl
          · obtain ⟨_, _, rfl⟩ := mem_partMesh hm
            rfl
        · obtain ⟨_, _, rfl⟩ := mem_partMesh hm
          rfl
      · obtain ⟨_, _, rfl⟩ := mem_partMesh hm
        rfl
  | kicker x =>
    have h : collectKicker E fuel o vpx x = .ok c := h
    unfold collectKicker at h
    split at h
    · cases h; cases hm
    · obtain ⟨_, _, h⟩ := Res.unbind h
      cases h
      rcases List.mem_append.1 hm with hm | hm
      · obtain ⟨_, _, rfl⟩ := mem_partMesh hm
        rfl
      · obtain ⟨_, _, rfl⟩ := mem_partMesh hm
        rfl
  | decal x =>
    have h : collectDecal E fuel o vpx x = .ok c := h
    unfold collectDecal at h
    obtain ⟨_, _, h⟩ := Res.unbind h
    split at h
    · cases h; cases hm
    · cases h
      dsimp only at hm
      obtain ⟨_, _, rfl⟩ := mem_partMesh hm
      rfl
  | light x =>
    have h : collectLight E fuel o vpx x = .ok c := h
    unfold collectLight at h
    split at h
    · cases h; cases hm
    · obtain ⟨_, _, h⟩ := Res.unbind h
      cases h
      rcases List.mem_append.1 hm with hm | hm
      · rcases List.mem_append.1 hm with hm | hm
        · obtain ⟨_, _, rfl⟩ := mem_partMesh hm
          rfl
        · obtain ⟨_, _, rfl⟩ := mem_partMesh hm
          rfl
      · split at hm
        · cases hm
        · obtain ⟨_, _, rfl⟩ := mem_partMesh hm
          rfl
  | _ => cases h; cases hm

end

/-! ### Concrete cases -/

attribute [local instance] ieeeExact

/-- both parts of a gate of length 100, only the wire stretched -/
example : ∃ c, collectItem gateSample 10 .default gltfItemTable (.gate Gate.default) = .ok c ∧
    c.meshes.map (fun m => (m.name, m.scale)) = [("Bracket".toList, none),
      ("Wire".toList, some ⟨0x42c80000, 0x42c80000, 0x42c80000⟩)] ∧ onTable (.gate Gate.default) = true := by
  refine ⟨⟨_, _, _⟩, rfl, ?_, rfl⟩
  decide +kernel

/-- a red ball at (1, 2, 3): its mesh is the ball's, it is red, and its place is (1, 3, 2) in metres -/
def redBall : Ball :=
  { Ball.default with name := "B".toList, color := { Ball.default.color with r := 255, g := 0, b := 0 }, pos := ⟨0x3f800000, 0x40000000, 0x40400000⟩ }

example : ∃ c, collectItem gateSample 10 .default gltfItemTable (.ball redBall) = .ok c ∧
    ownCentre gateSample.S gltfItemTable (.ball redBall) = some ⟨0x3f800000, 0x40000000, 0x40400000⟩ ∧
    c.meshes.map (fun m => (m.tint, m.translation)) = [(some ⟨0x3f800000, 0, 0, 0x3f800000⟩,
      some ⟨0x3f800000 *ᶠ ExportUnits.m.scale, 0x40400000 *ᶠ ExportUnits.m.scale, 0x40000000 *ᶠ ExportUnits.m.scale⟩)] := by
  refine ⟨⟨_, _, _⟩, rfl, rfl, ?_⟩
  decide +kernel

/-- the picture of a table is the roughness of its balls, or their colour if it is a decal -/
example : ((collectItem gateSample 10 .default { gltfItemTable with
      gamedata := { gltfItemTable.gamedata with ball_image_front := "scratches".toList } } (.ball redBall)).toOption.map
        fun c => c.meshes.map fun m => (m.texture, m.roughnessTexture)) = some [(none, some "scratches".toList)] ∧
    ((collectItem gateSample 10 .default { gltfItemTable with
      gamedata := { gltfItemTable.gamedata with ball_image_front := "scratches".toList, ball_decal_mode := true } }
      (.ball redBall)).toOption.map
        fun c => c.meshes.map fun m => (m.texture, m.roughnessTexture)) = some [(some "scratches".toList, none)] := by
  decide +kernel

/-- a wall whose lighting from below is disabled by half lets 0.15 of it through -/
example : ((collectItem gltfSample 10 .default { gltfItemTable with gameitems := [] }
    (.wall { notchedWall with disable_lighting_below := some 0x3f000000 })).toOption.map fun c =>
      c.meshes.map (·.transmission)) = some [some 0x3e19999a, some 0x3e19999a] := by
  decide +kernel

/-- with an insert of one triangle around (1, 2, 0), a light on the table has it 0.1 above the table -/
example : ((collectItem { gltfSample with S := { gltfStock with
      insert := fun _ _ => some (oneTriangle, ⟨0x3f800000, 0x40000000, 0⟩) } } 10 .default gltfItemTable
    (.light { Light.default with name := "L".toList })).toOption.map fun c => c.meshes.map fun m =>
      (m.name, m.translation)) = some [("L_insert".toList,
        some ⟨0x3f800000 *ᶠ ExportUnits.m.scale, 0x3dcccccd *ᶠ ExportUnits.m.scale, 0x40000000 *ᶠ ExportUnits.m.scale⟩)] := by
  decide +kernel

end Vpin
