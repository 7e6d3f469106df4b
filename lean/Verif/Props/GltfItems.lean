import Verif.Props.SceneItems
import Verif.Props.Placement
import Verif.Props.WallMesh
import Verif.Props.RampMesh
import Verif.Props.RubberMesh
import Verif.Spec.GltfParts
import Verif.Lemmas.GltfOwned
import Verif.Lemmas.GltfScene
import Verif.Lemmas.GltfSample
/-
C79: what the items of a table give in the glTF export.
-/
namespace Vpin
open Arith Scene

/-- name, material, texture and whether it is seen, of a mesh of the scene -/
def gltfLabel (m : NamedMesh) : (Str × Option Str) × Option Str × Bool := ((m.name, m.material), m.texture, m.visible)

/-- the same of a part of an item -/
def gltfPartLabel (item : GameItemEnum) (p : GltfPart) : (Str × Option Str) × Option Str × Bool :=
  ((item.name ++ p.suffix.toList, p.material), p.texture, p.seen)

theorem layerName_of (a : SharedAttrs) : layerName a = layerOf a.editor_layer_name a.editor_layer := by
  unfold layerName layerOf
  cases h : a.editor_layer_name with
  | none => rfl
  | some n => cases n <;> simp [nonEmpty]

/-- what is true of a list of meshes made of parts -/
structure PartList (P : NamedMesh → Prop) (l : List NamedMesh) (q : List ((Str × Option Str) × Option Str × Bool)) :
    Prop where
  labels : (l.map gltfLabel).Sublist q
  all : ∀ m ∈ l, P m

theorem PartList.nil {P : NamedMesh → Prop} {q} : PartList P [] q := ⟨List.nil_sublist _, fun _ h => by cases h⟩

theorem PartList.append {P : NamedMesh → Prop} {l l' q q'} (h : PartList P l q) (h' : PartList P l' q') :
    PartList P (l ++ l') (q ++ q') := by
  refine ⟨?_, ?_⟩
  · rw [List.map_append]; exact h.labels.append h'.labels
  · intro m hm
    rcases List.mem_append.mp hm with hm | hm
    · exact h.all m hm
    · exact h'.all m hm

theorem PartList.part {P : NamedMesh → Prop} {name : Str} {suffix : String} {r : Option RawMesh}
    {f : NamedMesh → NamedMesh} {q} (hl : ∀ x, r = some x → gltfLabel (f (NamedMesh.of (name ++ suffix.toList) x)) = q)
    (hp : ∀ x, r = some x → P (f (NamedMesh.of (name ++ suffix.toList) x))) : PartList P (partMesh name suffix r f) [q] := by
  cases r with
  | none => exact .nil
  | some x =>
    refine ⟨?_, ?_⟩
    · show [gltfLabel _].Sublist [q]
      rw [hl x rfl]
      exact List.Sublist.refl _
    · intro m hm
      rw [List.mem_singleton.mp hm]
      exact hp x rfl

section
variable [Arith]

/-- what is true of every mesh of an item -/
structure OfItem (fuel : Nat) (o : GltfOptions) (vpx : VPX) (item : GameItemEnum) (m : NamedMesh) : Prop where
  group : m.group = some item.name
  layer : m.layer = layerOf item.editor_layer_name item.editor_layer
  seen : o.exportInvisible = false → (∀ l, item ≠ .light l) → m.visible = true
  place : ∀ x y surface above, gltfStanding item = some (x, y, surface, above) → ∃ h,
    surfaceHeight fuel surface x y vpx.gameitems = .ok h ∧
    m.translation = some (gltfPoint o.units x y (above.elim h (h +ᶠ ·)))

local macro "part" : tactic => `(tactic| (
  refine PartList.part ?_ ?_
  · intro x hx
    simp_all [gltfLabel, gltfPartLabel, NamedMesh.of, nonEmpty_named, GameItemEnum.name]
  · intro x hx
    refine ⟨rfl, layerName_of _, ?_, ?_⟩
    · intro hi hl
      simp_all [NamedMesh.of]
    · intro x' y' s' a' hs
      cases hs
      try exact ⟨_, by assumption, rfl⟩))

local macro "onePart" : tactic => `(tactic| (
  dsimp only [gltfParts, List.map_cons, List.map_nil]
  part))

theorem collectPrimitive_parts {E : GltfEnv} {fuel : Nat} {o : GltfOptions} {vpx : VPX} {p : Primitive} {c : Collected}
    (h : collectPrimitive E o vpx p = .ok c) :
    PartList (OfItem fuel o vpx (.primitive p)) c.meshes ((gltfParts vpx (.primitive p)).map
      (gltfPartLabel (.primitive p))) := by
  unfold collectPrimitive at h
  dsimp only at h
  split at h
  · cases h
    exact .nil
  · rename_i hv
    split at h
    · cases h; exact .nil
    · cases h
    · cases h; exact .nil
    · cases h
      have hp : p.isPlayfield = (p.name.map asciiLower == "playfield_mesh".toList) := by
        have e : "playfield_mesh".toList.map asciiLower = "playfield_mesh".toList := by decide
        unfold Primitive.isPlayfield eqIgnoreAsciiCase
        rw [e]
      refine ⟨?_, ?_⟩
      · dsimp only [List.map_cons, List.map_nil, gltfLabel, NamedMesh.of]
        rw [nonEmpty_named, nonEmpty_named, nonEmpty_named]
        unfold GameData.playfieldMaterial
        dsimp only [gltfParts]
        have en : GameItemEnum.name (.primitive p) ++ "".toList = p.name := List.append_nil _
        by_cases hn : p.name.map asciiLower = "playfield_mesh".toList
        · have ht := hp.trans (beq_iff_eq.2 hn)
          rw [ht, if_pos hn]
          have e : (if vpx.gamedata.playfield_material.isEmpty = true then "__playfield__".toList
              else vpx.gamedata.playfield_material) = if vpx.gamedata.playfield_material = [] then
                "__playfield__".toList else vpx.gamedata.playfield_material := by
            cases vpx.gamedata.playfield_material <;> rfl
          rw [e]
          simp only [List.map_cons, List.map_nil, gltfLabel, gltfPartLabel, en]
          exact List.Sublist.refl _
        · have ht : p.isPlayfield = false := by
            rw [hp]; exact beq_eq_false_iff_ne.mpr hn
          rw [ht, if_neg hn]
          simp only [List.map_cons, List.map_nil, gltfLabel, gltfPartLabel, en]
          exact List.Sublist.refl _
      · intro m hm
        rw [List.mem_singleton.mp hm]
        refine ⟨rfl, layerName_of _, ?_, ?_⟩
        · intro hi _
          rw [hi] at hv
          cases hh : primitiveIsVisible p vpx.version
          · exact absurd (by rw [hh]; rfl) hv
          · rfl
        · intro x' y' s' a' hs
          cases hs

set_option maxHeartbeats 800000 in
theorem collectItem_parts {E : GltfEnv} {fuel : Nat} {o : GltfOptions} {vpx : VPX} {it : GameItemEnum} {c : Collected}
    (h : collectItem E fuel o vpx it = .ok c) :
    PartList (OfItem fuel o vpx it) c.meshes ((gltfParts vpx it).map (gltfPartLabel it)) := by
  cases it with
  | wall w =>
    have h : collectWall E fuel o vpx w = .ok c := h
    unfold collectWall at h
    split at h
    · cases h
      exact .nil
    · obtain ⟨m, hm, h⟩ := Res.unbind h
      cases m with
      | none => cases h; exact .nil
      | some m =>
        cases h
        exact PartList.append (q := [_]) (q' := [_]) (by part) (by part)
  | flipper f =>
    have h : Except.ok (collectFlipper E o f) = .ok c := h
    cases h
    unfold collectFlipper
    split
    · exact .nil
    · split
      · exact .nil
      · rename_i hv _ _ _ _ hs
        have hv : f.is_visible = true := by
          cases hh : f.is_visible
          · rw [hh] at hs; cases hs
          · rfl
        have hi : f.image.bind nonEmpty = f.image.bind named := by
          cases f.image with
          | none => rfl
          | some i => exact nonEmpty_named i
        rw [hi]
        exact PartList.append (q := [_]) (q' := [_]) (by part) (by part)
  | bumper b =>
    have h : collectBumper E fuel o vpx b = .ok c := h
    unfold collectBumper at h
    obtain ⟨x, hx, h⟩ := Res.unbind h
    cases h
    have hi : b.ring_material.bind nonEmpty = b.ring_material.bind named := by
      cases b.ring_material with
      | none => rfl
      | some i => exact nonEmpty_named i
    rw [hi]
    exact PartList.append (q := [_, _, _]) (q' := [_]) (PartList.append (q := [_, _]) (q' := [_]) 
      (PartList.append (q := [_]) (q' := [_]) (by part) (by part)) (by part)) (by part)
  | trigger t =>
    have h : collectTrigger E fuel o vpx t = .ok c := h
    unfold collectTrigger at h
    split at h
    · cases h
      exact .nil
    · obtain ⟨x, hx, h⟩ := Res.unbind h
      split at h
      · cases h; exact .nil
      · cases h; onePart
  | light l =>
    have h : collectLight E fuel o vpx l = .ok c := h
    unfold collectLight at h
    split at h
    · cases h
      exact .nil
    · rename_i hb
      obtain ⟨x, hx, h⟩ := Res.unbind h
      cases h
      simp only [gltfParts]
      rw [if_neg hb]
      refine PartList.append (q := [_, _]) (q' := [_]) (PartList.append (q := [_]) (q' := [_]) ?_ ?_) ?_
      · part
      · part
      · split
        · exact .nil
        · have hi : (if (!l.is_bulb_light && !l.image.isEmpty) = true then some l.image else none) =
              if l.is_bulb_light = true then none else named l.image := by
            cases l.is_bulb_light <;> cases l.image <;> rfl
          rw [hi]
          part
  | kicker k =>
    have h : collectKicker E fuel o vpx k = .ok c := h
    unfold collectKicker at h
    split at h
    · cases h
      exact .nil
    · rename_i hk
      obtain ⟨x, hx, h⟩ := Res.unbind h
      cases h
      simp only [gltfParts]
      rw [if_neg hk]
      exact PartList.append (q := [_]) (q' := [_]) (by part) (by part)
  | decal d =>
    have h : collectDecal E fuel o vpx d = .ok c := h
    unfold collectDecal at h
    obtain ⟨x, hx, h⟩ := Res.unbind h
    split at h
    · cases h; exact .nil
    · cases h; onePart
  | gate g =>
    have h : collectGate E fuel o vpx g = .ok c := h
    unfold collectGate at h
    split at h
    · cases h
      exact .nil
    · obtain ⟨x, hx, h⟩ := Res.unbind h
      split at h
      · cases h; exact .nil
      · cases h
        exact PartList.append (q := [_]) (q' := [_]) (by part) (by part)
  | spinner s =>
    have h : collectSpinner E fuel o vpx s = .ok c := h
    unfold collectSpinner at h
    split at h
    · cases h
      exact .nil
    · obtain ⟨x, hx, h⟩ := Res.unbind h
      cases h
      exact PartList.append (q := [_]) (q' := [_]) (by part) (by part)
  | ramp r =>
    have h : collectRamp E fuel o vpx r = .ok c := h
    unfold collectRamp at h
    split at h
    · cases h
      exact .nil
    · obtain ⟨m, hm, h⟩ := Res.unbind h
      cases m with
      | none => cases h; exact .nil
      | some m => cases h; onePart
  | rubber r =>
    have h : collectRubber E fuel o vpx r = .ok c := h
    unfold collectRubber at h
    split at h
    · cases h
      exact .nil
    · obtain ⟨m, hm, h⟩ := Res.unbind h
      cases m with
      | none => cases h; exact .nil
      | some m => cases h; onePart
  | plunger p =>
    have h : collectPlunger E fuel o vpx p = .ok c := h
    unfold collectPlunger at h
    split at h
    · cases h
      exact .nil
    · obtain ⟨x, hx, h⟩ := Res.unbind h
      cases h
      exact PartList.append (q := [_, _, _, _]) (q' := [_]) (PartList.append (q := [_, _, _]) (q' := [_])
        (PartList.append (q := [_, _]) (q' := [_]) (PartList.append (q := [_]) (q' := [_]) (by part) (by part))
        (by part)) (by part)) (by part)
  | primitive p => exact collectPrimitive_parts h
  | hitTarget t =>
    have h : Except.ok (collectHitTarget E o t) = .ok c := h
    cases h
    unfold collectHitTarget
    split
    · exact .nil
    · split
      · exact .nil
      · onePart
  | flasher f =>
    have h : Except.ok (collectFlasher E o vpx f) = .ok c := h
    cases h
    unfold collectFlasher
    split
    · exact .nil
    · split
      · exact .nil
      · onePart
  | ball b =>
    have h : Except.ok (collectBall E o vpx b) = .ok c := h
    cases h
    unfold collectBall
    have hi : (if (b.decal_mode || vpx.gamedata.ball_decal_mode) = true then
        (if b.image_decal.isEmpty = true then nonEmpty vpx.gamedata.ball_image_front else some b.image_decal) else none) =
        if (b.decal_mode || vpx.gamedata.ball_decal_mode) = true then
          named (if b.image_decal = [] then vpx.gamedata.ball_image_front else b.image_decal) else none := by
      cases b.image_decal <;> simp [nonEmpty_named, named]
    dsimp only
    rw [hi]
    onePart
  | _ =>
    cases h
    exact .nil

/-! ### The meshes of an item -/

/-- **C79**: the meshes of an item are parts it has, in their order and none twice, each with its name, its material, its
texture and whether it is seen in the game. Timers, texts, reels, light sequences and part groups give none. -/
theorem C79_parts {E : GltfEnv} {fuel : Nat} {o : GltfOptions} {vpx : VPX} {item : GameItemEnum} {c : Collected}
    (h : collectItem E fuel o vpx item = .ok c) :
    (c.meshes.map gltfLabel).Sublist ((gltfParts vpx item).map (gltfPartLabel item)) :=
  (collectItem_parts h).labels

/-- **C79**: unless hidden items are asked for, every mesh is seen in the game, but for those of lights. -/
theorem C79_hidden {E : GltfEnv} {fuel : Nat} {o : GltfOptions} {vpx : VPX} {item : GameItemEnum} {c : Collected}
    (h : collectItem E fuel o vpx item = .ok c) (ho : o.exportInvisible = false) (hl : ∀ l, item ≠ .light l) :
    ∀ m ∈ c.meshes, m.visible = true :=
  fun m hm => ((collectItem_parts h).all m hm).seen ho hl

/-- **C79**: every mesh of an item belongs to the group of the item's name, and to its layer: the name of the layer, or
else its number. -/
theorem C79_group {E : GltfEnv} {fuel : Nat} {o : GltfOptions} {vpx : VPX} {item : GameItemEnum} {c : Collected}
    (h : collectItem E fuel o vpx item = .ok c) :
    ∀ m ∈ c.meshes, m.group = some item.name ∧ m.layer = layerOf item.editor_layer_name item.editor_layer :=
  fun m hm => ⟨((collectItem_parts h).all m hm).group, ((collectItem_parts h).all m hm).layer⟩

/-- **C79**: bumpers, gates, kickers, spinners, triggers, plungers and decals are at their centres, on the surface they
stand on (`C74_height`), with y and z exchanged and in the units of the export. -/
theorem C79_standing {E : GltfEnv} {fuel : Nat} {o : GltfOptions} {vpx : VPX} {item : GameItemEnum} {c : Collected}
    {x y : F32} {surface : Str} {above : Option F32} (h : collectItem E fuel o vpx item = .ok c)
    (hs : gltfStanding item = some (x, y, surface, above)) : ∀ m ∈ c.meshes, ∃ z,
      surfaceHeight fuel surface x y vpx.gameitems = .ok z ∧ m.translation = some
        ⟨x *ᶠ o.units.scale, above.elim z (z +ᶠ ·) *ᶠ o.units.scale, y *ᶠ o.units.scale⟩ :=
  fun m hm => ((collectItem_parts h).all m hm).place x y surface above hs

/-- **C79**: the bulb and the socket of a light are at its centre, on the surface it stands on. -/
theorem C79_light {E : GltfEnv} {fuel : Nat} {o : GltfOptions} {vpx : VPX} {l : Light} {c : Collected}
    (h : collectItem E fuel o vpx (.light l) = .ok c) (m : NamedMesh) (hm : m ∈ c.meshes)
    (hn : m.name = l.name ++ "_bulb".toList ∨ m.name = l.name ++ "_socket".toList) : ∃ z,
      surfaceHeight fuel l.surface l.center.x l.center.y vpx.gameitems = .ok z ∧ m.translation = some
        ⟨l.center.x *ᶠ o.units.scale, z *ᶠ o.units.scale, l.center.y *ᶠ o.units.scale⟩ := by
  have h : collectLight E fuel o vpx l = .ok c := h
  unfold collectLight at h
  split at h
  · cases h; cases hm
  · obtain ⟨z, hz, h⟩ := Res.unbind h
    cases h
    refine ⟨z, hz, ?_⟩
    rcases List.mem_append.mp hm with hm | hm
    · rcases List.mem_append.mp hm with hm | hm
      · obtain ⟨x, _, rfl⟩ := mem_partMesh hm
        rfl
      · obtain ⟨x, _, rfl⟩ := mem_partMesh hm
        rfl
    · split at hm
      · cases hm
      · obtain ⟨x, _, rfl⟩ := mem_partMesh hm
        rcases hn with hn | hn
        · exact absurd (List.append_cancel_left hn) (by decide)
        · exact absurd (List.append_cancel_left hn) (by decide)

/-- **C79**: a primitive with a mesh that is visible, or any if hidden items are asked for, gives one mesh: its triangles,
its vertices scaled and turned, and its position as the place of the node. -/
theorem C79_primitive {E : GltfEnv} {fuel : Nat} {o : GltfOptions} {vpx : VPX} {p : Primitive} {read : Mesh}
    (hv : o.exportInvisible = true ∨ primitiveIsVisible p vpx.version = true)
    (hm : effectivePrimitiveMesh E.Z p = .ok (some read)) :
    ∃ c m, collectItem E fuel o vpx (.primitive p) = .ok c ∧ c.meshes = [m] ∧ m.faces = read.faces ∧
      m.vertices = (read.vertices.map fun w => primitiveVertex (primitiveLocalMatrix ⟨p.size.x, p.size.y, p.size.z⟩
        p.rot_and_tra0 p.rot_and_tra1 p.rot_and_tra2 p.rot_and_tra3 p.rot_and_tra4 p.rot_and_tra5 p.rot_and_tra6
        p.rot_and_tra7 p.rot_and_tra8) w.vertex) ∧
      m.scale = none ∧ m.translation = some
        ⟨p.position.x *ᶠ o.units.scale, p.position.z *ᶠ o.units.scale, p.position.y *ᶠ o.units.scale⟩ := by
  have h : collectItem E fuel o vpx (.primitive p) = collectPrimitive E o vpx p := rfl
  rw [h]
  unfold collectPrimitive
  dsimp only
  rw [if_neg (by rcases hv with hv | hv <;> simp [hv]), hm]
  exact ⟨_, _, rfl, rfl, rfl, rfl, rfl, rfl⟩

/-- **C79**: a primitive that is hidden, or whose mesh cannot be read, gives none. -/
theorem C79_hidden_primitive {E : GltfEnv} {fuel : Nat} {o : GltfOptions} {vpx : VPX} {p : Primitive}
    (hv : o.exportInvisible = false ∧ primitiveIsVisible p vpx.version = false ∨
      effectivePrimitiveMesh E.Z p = .ok none ∨ effectivePrimitiveMesh E.Z p = .error .io) :
    ∃ c, collectItem E fuel o vpx (.primitive p) = .ok c ∧ c.meshes = [] ∧ c.groups = [] := by
  have h : collectItem E fuel o vpx (.primitive p) = collectPrimitive E o vpx p := rfl
  rw [h]
  unfold collectPrimitive
  dsimp only
  by_cases hh : (!o.exportInvisible && !primitiveIsVisible p vpx.version) = true
  · rw [if_pos hh]
    exact ⟨_, rfl, rfl, rfl⟩
  · rw [if_neg hh]
    rcases hv with ⟨h1, h2⟩ | hv | hv
    · rw [h1, h2] at hh; exact absurd rfl hh
    · rw [hv]; exact ⟨_, rfl, rfl, rfl⟩
    · rw [hv]; exact ⟨_, rfl, rfl, rfl⟩

/-- **C79**: the top and the side of a wall (`C62`) are meshes of their own, each if it is visible or hidden items are
asked for, with their vertices where they are. -/
theorem C79_wall {E : GltfEnv} {fuel : Nat} {o : GltfOptions} {vpx : VPX} {w : Wall} {m : WallMeshes}
    (hm : buildWallMeshes fuel w ⟨vpx.gamedata.left, vpx.gamedata.top, vpx.gamedata.right, vpx.gamedata.bottom⟩ =
      .ok (some m)) : ∃ c, collectItem E fuel o vpx (.wall w) = .ok c ∧
    (∀ x ∈ c.meshes, x.translation = none ∧ x.scale = none) ∧
    c.meshes.map (fun x => (x.name, x.vertices, x.faces)) =
      (if o.exportInvisible = true ∨ w.is_top_bottom_visible = true then
        m.top.toList.map fun t => (w.name ++ "Top".toList, t.vertices, t.tris.map Tri.face) else []) ++
      (if o.exportInvisible = true ∨ w.is_side_visible = true then
        m.side.toList.map fun t => (w.name ++ "Side".toList, t.vertices, t.tris.map Tri.face) else []) := by
  have h : collectItem E fuel o vpx (.wall w) = collectWall E fuel o vpx w := rfl
  rw [h]
  unfold collectWall
  by_cases hh : (!o.exportInvisible && !w.is_top_bottom_visible && !w.is_side_visible) = true
  · rw [if_pos hh]
    refine ⟨_, rfl, (by intro x hx; cases hx), ?_⟩
    revert hh
    cases o.exportInvisible <;> cases w.is_top_bottom_visible <;> cases w.is_side_visible <;> intro hh <;>
      first | rfl | cases hh
  · rw [if_neg hh, show vpx.gamedata.dims = _ from rfl]
    have hm' : buildWallMeshes fuel w vpx.gamedata.dims = .ok (some m) := hm
    rw [hm']
    refine ⟨_, rfl, ?_, ?_⟩
    · intro x hx
      rcases List.mem_append.mp hx with hx | hx
      · obtain ⟨x, _, rfl⟩ := mem_partMesh hx
        exact ⟨rfl, rfl⟩
      · obtain ⟨x, _, rfl⟩ := mem_partMesh hx
        exact ⟨rfl, rfl⟩
    · cases o.exportInvisible <;> cases w.is_top_bottom_visible <;> cases w.is_side_visible <;> cases m.top <;>
        cases m.side <;> rfl

/-- **C79**: the mesh of a ramp (`C66`) that is visible, or of any if hidden items are asked for, is a mesh of the scene,
with its vertices where they are. -/
theorem C79_ramp {E : GltfEnv} {fuel : Nat} {o : GltfOptions} {vpx : VPX} {r : Ramp} {m : GenMesh}
    (hv : o.exportInvisible = true ∨ r.is_visible = true)
    (hm : buildRampMesh fuel r ⟨vpx.gamedata.left, vpx.gamedata.top, vpx.gamedata.right, vpx.gamedata.bottom⟩
      vpx.gamedata.detailLevel (((vpx.gamedata.materials.getD []).find? fun m =>
        m.name.map asciiLower == r.material.map asciiLower).any (·.opacity_active)) = .ok (some m)) :
    ∃ c x, collectItem E fuel o vpx (.ramp r) = .ok c ∧ c.meshes = [x] ∧ x.vertices = m.vertices ∧
      x.faces = m.tris.map Tri.face ∧ x.translation = none ∧ x.scale = none := by
  have h : collectItem E fuel o vpx (.ramp r) = collectRamp E fuel o vpx r := rfl
  rw [h]
  unfold collectRamp
  rw [if_neg (by rcases hv with hv | hv <;> simp [hv])]
  have hm' : buildRampMesh fuel r vpx.gamedata.dims vpx.gamedata.detailLevel
    (((vpx.gamedata.materials.getD []).find? (fun m => eqIgnoreAsciiCase m.name r.material)).any (·.opacity_active)) =
      .ok (some m) := hm
  dsimp only
  rw [hm']
  exact ⟨_, _, rfl, rfl, rfl, rfl, rfl, rfl⟩

/-- **C79**: the mesh of a rubber (`C64`) that is visible, or of any if hidden items are asked for, is a mesh of the scene,
at the point its vertices are relative to. -/
theorem C79_rubber {E : GltfEnv} {fuel : Nat} {o : GltfOptions} {vpx : VPX} {r : Rubber} {m : GenMesh} {p : Vec3}
    (hv : o.exportInvisible = true ∨ r.is_visible = true)
    (hm : buildRubberMesh fuel r vpx.gamedata.detailLevel = .ok (some (m, p))) :
    ∃ c x, collectItem E fuel o vpx (.rubber r) = .ok c ∧ c.meshes = [x] ∧ x.vertices = m.vertices ∧
      x.faces = m.tris.map Tri.face ∧ x.scale = none ∧ x.translation = some
        ⟨p.x *ᶠ o.units.scale, p.z *ᶠ o.units.scale, p.y *ᶠ o.units.scale⟩ := by
  have h : collectItem E fuel o vpx (.rubber r) = collectRubber E fuel o vpx r := rfl
  rw [h]
  unfold collectRubber
  rw [if_neg (by rcases hv with hv | hv <;> simp [hv]), hm]
  exact ⟨_, _, rfl, rfl, rfl, rfl, rfl, rfl⟩

theorem collectItem_playfield {E : GltfEnv} {fuel : Nat} {o : GltfOptions} {vpx : VPX} {it : GameItemEnum}
    {c : Collected} (h : collectItem E fuel o vpx it = .ok c) :
    c.playfield = true ↔ ∃ p, it = .primitive p ∧ p.name.map asciiLower = "playfield_mesh".toList ∧ c.meshes ≠ [] := by
  by_cases hi : ∃ p, it = .primitive p
  · obtain ⟨p, rfl⟩ := hi
    have h : collectPrimitive E o vpx p = .ok c := h
    have hp : p.isPlayfield = (p.name.map asciiLower == "playfield_mesh".toList) := by
      have e : "playfield_mesh".toList.map asciiLower = "playfield_mesh".toList := by decide
      unfold Primitive.isPlayfield eqIgnoreAsciiCase
      rw [e]
    unfold collectPrimitive at h
    dsimp only at h
    split at h
    · cases h
      exact ⟨fun h => (by cases h), fun ⟨_, _, _, h⟩ => absurd rfl h⟩
    · split at h
      · cases h
        exact ⟨fun h => (by cases h), fun ⟨_, _, _, h⟩ => absurd rfl h⟩
      · cases h
      · cases h
        exact ⟨fun h => (by cases h), fun ⟨_, _, _, h⟩ => absurd rfl h⟩
      · cases h
        constructor
        · intro h
          exact ⟨p, rfl, beq_iff_eq.1 (hp.symm.trans h), List.cons_ne_nil _ _⟩
        · rintro ⟨q, hq, h, _⟩
          cases hq
          exact hp.trans (beq_iff_eq.2 h)
  · constructor
    · intro hc
      exfalso
      revert hc
      cases it
      case primitive p => exact absurd ⟨p, rfl⟩ hi
      all_goals
        simp only [collectItem, collectWall, collectRamp, collectRubber, collectFlasher, collectFlipper, collectBumper,
          collectSpinner, collectHitTarget, collectGate, collectTrigger, collectLight, collectPlunger, collectKicker,
          collectDecal, collectBall] at h
        repeat' first
          | (cases h; exact Bool.false_ne_true)
          | (obtain ⟨_, _, h⟩ := Res.unbind h)
          | split at h
    · rintro ⟨p, rfl, _⟩
      exact absurd ⟨p, rfl⟩ hi

/-- **C79**: the meshes of the scene are those of the items, one item after the other, and then a rectangle as large as
the table, unless a primitive called playfield_mesh has given a mesh. -/
theorem C79_scene {E : GltfEnv} {fuel : Nat} {o : GltfOptions} {vpx : VPX} {meshes : List NamedMesh}
    {groups : List ItemGroup} (h : collectMeshes E fuel o vpx = .ok (meshes, groups)) :
    ∃ parts : List (List NamedMesh), parts.length = vpx.gameitems.length ∧
      (∀ (i : Nat) item, vpx.gameitems[i]? = some item → ∃ c, collectItem E fuel o vpx item = .ok c ∧
        parts[i]? = some c.meshes) ∧
      ((∃ (i : Nat) (p : Primitive), vpx.gameitems[i]? = some (.primitive p) ∧
          p.name.map asciiLower = "playfield_mesh".toList ∧ parts[i]? ≠ some []) → meshes = parts.flatten) ∧
      ((¬ ∃ (i : Nat) (p : Primitive), vpx.gameitems[i]? = some (.primitive p) ∧
          p.name.map asciiLower = "playfield_mesh".toList ∧ parts[i]? ≠ some []) → ∃ m, meshes = parts.flatten ++ [m] ∧
        m.name = "playfield_mesh".toList ∧ m.texture = named vpx.gamedata.image ∧ m.translation = none ∧
        m.vertices = (playfieldMesh vpx.gamedata.left vpx.gamedata.top vpx.gamedata.right vpx.gamedata.bottom).vertices ∧
        m.faces = (playfieldMesh vpx.gamedata.left vpx.gamedata.top vpx.gamedata.right vpx.gamedata.bottom).faces) := by
  obtain ⟨cs, hc, rfl, rfl⟩ := collectMeshes_parts h
  obtain ⟨hlen, hget⟩ := mapM_ok_get hc
  have hflat : (cs.map (·.meshes)).flatten = cs.flatMap (·.meshes) := List.flatMap_def.symm
  have hany : cs.any (·.playfield) = true ↔ ∃ (i : Nat) (p : Primitive), vpx.gameitems[i]? = some (.primitive p) ∧
      p.name.map asciiLower = "playfield_mesh".toList ∧ (cs.map (·.meshes))[i]? ≠ some [] := by
    rw [List.any_eq_true]
    constructor
    · rintro ⟨c, hcm, hp⟩
      obtain ⟨i, hi, rfl⟩ := List.mem_iff_getElem.mp hcm
      have hi' : i < vpx.gameitems.length := hlen ▸ hi
      obtain ⟨c', h1, h2⟩ := hget i _ (List.getElem?_eq_getElem hi')
      rw [List.getElem?_eq_getElem hi] at h1
      cases h1
      obtain ⟨p, hit, hn, hm⟩ := (collectItem_playfield h2).1 hp
      refine ⟨i, p, ?_, hn, ?_⟩
      · rw [List.getElem?_eq_getElem hi', hit]
      · rw [List.getElem?_map, List.getElem?_eq_getElem hi]
        intro h
        exact hm (Option.some.inj h)
    · rintro ⟨i, p, hi, hn, hm⟩
      obtain ⟨c, h1, h2⟩ := hget i _ hi
      refine ⟨c, List.mem_of_getElem? h1, (collectItem_playfield h2).2 ⟨p, rfl, hn, ?_⟩⟩
      intro he
      rw [List.getElem?_map, h1] at hm
      exact hm (congrArg some he)
  refine ⟨cs.map (·.meshes), by rw [List.length_map, hlen], ?_, ?_, ?_⟩
  · intro i item hi
    obtain ⟨c, h1, h2⟩ := hget i item hi
    exact ⟨c, h2, by rw [List.getElem?_map, h1]; rfl⟩
  · intro hp
    rw [if_pos (hany.2 hp), hflat]
  · intro hp
    rw [if_neg (fun h => hp (hany.1 h)), hflat]
    exact ⟨_, rfl, rfl, nonEmpty_named _, rfl, rfl, rfl⟩

end

/-! ### Primitives, with exact numbers -/

section
variable {α : Type} [Lean.Grind.Field α] {sin cos radians : α → α}
open Geometry

/-- a point in the file: y and z exchanged, in units -/
def inFile (k : α) (p : V3 α) : V3 α := ⟨p.x * k, p.z * k, p.y * k⟩

/-- **C79**: a primitive is where it is in the game (`C73`): its vertices moved by its position are those of the matrix of
the game, also after the change to the axes and the units of the file, and the normals are the same. -/
theorem C79_local (pos size : V3 α) (t0 t1 t2 t3 t4 t5 t6 t7 t8 k : α) (p : V3 α) :
    letI := exactOps sin cos radians
    let game := primitiveWorldMatrix pos size t0 t1 t2 t3 t4 t5 t6 t7 t8
    let here := primitiveLocalMatrix size t0 t1 t2 t3 t4 t5 t6 t7 t8
    move pos (here.transformVertex p) = game.transformVertex p ∧
      move (inFile k pos) (inFile k (here.transformVertex p)) = inFile k (game.transformVertex p) ∧
      here.transformNormal p = game.transformNormal p := by
  letI := exactOps sin cos radians
  have a1 := mult_affine (sin := sin) (cos := cos) (radians := radians) (affine_translate (sin := sin) (cos := cos)
    (radians := radians) t3 t4 t5) (affine_rotateZ (sin := sin) (cos := cos) (radians := radians) (radians t2))
  have a2 := mult_affine (sin := sin) (cos := cos) (radians := radians) a1
    (affine_rotateY (sin := sin) (cos := cos) (radians := radians) (radians t1))
  have a3 := mult_affine (sin := sin) (cos := cos) (radians := radians) a2
    (affine_rotateX (sin := sin) (cos := cos) (radians := radians) (radians t0))
  have a4 := mult_affine (sin := sin) (cos := cos) (radians := radians) a3
    (affine_rotateZ (sin := sin) (cos := cos) (radians := radians) (radians t8))
  have a5 := mult_affine (sin := sin) (cos := cos) (radians := radians) a4
    (affine_rotateY (sin := sin) (cos := cos) (radians := radians) (radians t7))
  have a6 := mult_affine (sin := sin) (cos := cos) (radians := radians) a5
    (affine_rotateX (sin := sin) (cos := cos) (radians := radians) (radians t6))
  have s0 := affine_scale (sin := sin) (cos := cos) (radians := radians) size.x size.y size.z
  have a7 := mult_affine (sin := sin) (cos := cos) (radians := radians) s0 a6
  have h1 : (primitiveWorldMatrix pos size t0 t1 t2 t3 t4 t5 t6 t7 t8).transformVertex p =
      move pos ((primitiveLocalMatrix size t0 t1 t2 t3 t4 t5 t6 t7 t8).transformVertex p) := by
    refine (transform_mult a7 (affine_translate pos.x pos.y pos.z) p).trans ?_
    rw [(transform_translate pos _).1]
    rfl
  have h2 : (primitiveWorldMatrix pos size t0 t1 t2 t3 t4 t5 t6 t7 t8).transformNormal p =
      (primitiveLocalMatrix size t0 t1 t2 t3 t4 t5 t6 t7 t8).transformNormal p := by
    refine (transformNormal_mult a7 p).trans ?_
    rw [(transform_translate pos _).2]
    rfl
  refine ⟨h1.symm, ?_, h2.symm⟩
  show _ = inFile k ((primitiveWorldMatrix pos size t0 t1 t2 t3 t4 t5 t6 t7 t8).transformVertex p)
  rw [h1]
  generalize (primitiveLocalMatrix size t0 t1 t2 t3 t4 t5 t6 t7 t8).transformVertex p = q
  simp only [inFile, move, V3.mk.injEq]
  refine ⟨?_, ?_, ?_⟩ <;> grind

end

/-! ### Concrete cases -/

section
attribute [local instance] ieeeExact

/-- the environment of the other examples, with a mesh for gates -/
def gateSample : GltfEnv := { gltfSample with S := { gltfStock with gate := fun _ => some (some oneTriangle, oneTriangle) } }

/-- the table of the OBJ export with a spinner on a wall, with a hidden light on a layer that has a number, a hidden gate
and a gate on a layer that has a name -/
def gltfItemTable : VPX :=
  { standingTable with
    gameitems := standingTable.gameitems ++
      [.light { Light.default with
         name := "L".toList, show_bulb_mesh := true, visible := some false, center := ⟨fTwo, f32One⟩,
         shared := { Light.default.shared with editor_layer := some 2 } },
       .gate { Gate.default with name := "G".toList, is_visible := false },
       .gate { Gate.default with
         name := "H".toList, material := "m".toList,
         shared := { Gate.default.shared with editor_layer := some 2, editor_layer_name := some "Top".toList } }] }

/-- the names of the meshes of the items, and whether they are seen -/
def itemNames (o : GltfOptions) : List (Option (List (Str × Bool))) :=
  gltfItemTable.gameitems.map fun i => (collectItem gateSample 10 o gltfItemTable i).toOption.map fun c =>
    c.meshes.map fun m => (m.name, m.visible)

/-- all items are collected: the primitive and the spinner, the hidden light and the visible gate; the walls have no drag
points -/
example : itemNames .default =
    [some [("ledge".toList, true)], some [], some [], some [("SPlate".toList, true)],
     some [("L_bulb".toList, false), ("L_socket".toList, false)], some [],
     some [("HBracket".toList, true), ("HWire".toList, true)]] := by
  decide +kernel

/-- the meshes of the items from the spinner on -/
def lastMeshes : List NamedMesh :=
  (gltfItemTable.gameitems.drop 3).flatMap fun i =>
    ((collectItem gateSample 10 .default gltfItemTable i).toOption.map (·.meshes)).getD []

/-- with their layers and their materials -/
example : lastMeshes.map (fun m => (m.layer, m.material)) =
    [(none, none), (some "Layer_3".toList, none), (some "Layer_3".toList, none),
     (some "Layer_Top".toList, some "m".toList), (some "Layer_Top".toList, some "m".toList)] := by
  decide +kernel

/-- and their places: the spinner is 50 above the table -/
example : lastMeshes.map (·.translation) =
    [some ⟨f32One *ᶠ ExportUnits.m.scale, 0x42480000 *ᶠ ExportUnits.m.scale, fTwo *ᶠ ExportUnits.m.scale⟩,
     some ⟨fTwo *ᶠ ExportUnits.m.scale, 0, f32One *ᶠ ExportUnits.m.scale⟩,
     some ⟨fTwo *ᶠ ExportUnits.m.scale, 0, f32One *ᶠ ExportUnits.m.scale⟩,
     some ⟨0, 0x42480000 *ᶠ ExportUnits.m.scale, 0⟩, some ⟨0, 0x42480000 *ᶠ ExportUnits.m.scale, 0⟩] := by
  decide +kernel

/-- the scene of the table has an implicit playfield, and without the table's items it is all there is -/
example : ((collectMeshes gateSample 10 .default gltfItemTable).toOption.map fun r => r.1.map (·.name)) =
      some (["ledge", "SPlate", "L_bulb", "L_socket", "HBracket", "HWire", "playfield_mesh"].map (·.toList)) ∧
    ((collectMeshes gateSample 10 .default { gltfItemTable with
        gameitems := [.primitive { Primitive.default with name := "Playfield_Mesh".toList, sides := 3 }] }).toOption.map
      fun r => r.1.map (·.name)) = some ["Playfield_Mesh".toList] := by
  decide +kernel

/-- the numbers of vertices and triangles of the meshes of an item in an empty table -/
def itemCounts (o : GltfOptions) (i : GameItemEnum) : Option (List (Nat × Nat)) :=
  (collectItem gltfSample 10 o { gltfItemTable with gameitems := [] } i).toOption.map fun c =>
    c.meshes.map fun m => (m.vertices.length, m.faces.length)

/-- walls, ramps and rubbers have meshes: here a wall with five corners, all of it, only its top, and with its hidden
side, a ramp of two wires and a rubber -/
example : itemCounts .default (.wall notchedWall) = some [(5, 3), (20, 10)] ∧
    itemCounts .default (.wall { notchedWall with is_side_visible := false }) = some [(5, 3)] ∧
    itemCounts { GltfOptions.default with exportInvisible := true } (.wall { notchedWall with is_side_visible := false }) =
      some [(5, 3), (20, 10)] := by
  decide +kernel

example : itemCounts .default (.ramp (cornerRampOf .TwoWire)) = some [(72, 96)] ∧
    itemCounts .default (.ramp { cornerRampOf .TwoWire with is_visible := false }) = some [] ∧
    (itemCounts .default (.rubber squareRubber)).map List.length = some 1 := by
  decide +kernel

/-- **C79**, the claim that would be too strong: without asking for hidden items there are none in the scene. Hidden
lights are. -/
theorem C79_hidden_light_counterexample : ¬ ∀ (item : GameItemEnum) (c : Collected),
    item ∈ gltfItemTable.gameitems → collectItem gateSample 10 .default gltfItemTable item = .ok c →
      ∀ m ∈ c.meshes, m.visible = true := by
  intro h
  have e : (itemNames .default)[4]? = some (some [("L_bulb".toList, false), ("L_socket".toList, false)]) := by
    decide +kernel
  unfold itemNames at e
  rw [List.getElem?_map] at e
  obtain ⟨item, hi, e⟩ := Option.map_eq_some_iff.1 e
  cases hc : collectItem gateSample 10 .default gltfItemTable item with
  | error x => rw [hc] at e; cases e
  | ok c =>
    rw [hc] at e
    have e : c.meshes.map (fun m => (m.name, m.visible)) = _ := Option.some.inj e
    cases hm : c.meshes with
    | nil => rw [hm] at e; cases e
    | cons m rest =>
      rw [hm] at e
      have h1 := h item c (List.mem_of_getElem? hi) hc m (hm ▸ List.mem_cons_self)
      have h2 : (m.name, m.visible) = _ := (List.cons.inj e).1
      have h3 : m.visible = false := congrArg Prod.snd h2
      rw [h1] at h3
      cases h3

/-- **C79**, the claim that would be too strong: asked for hidden items, the export has them. A hidden gate is left out,
although a visible one is there. -/
theorem C79_invisible_counterexample : (itemNames { GltfOptions.default with exportInvisible := true }).drop 5 =
    [some [], some [("HBracket".toList, true), ("HWire".toList, true)]] := by
  decide +kernel

end
end Vpin
