import Verif.Props.GltfGroups
import Verif.Lemmas.GltfBounds
import Verif.Spec.GltfLights
/-!
# C80: how far and how bright the lights of a scene are
-/
namespace Vpin
open Arith Scene
section
variable [Arith]

/-- **C80**: a tenth of the intensity of a light of the general illumination, limited to 0.01 to 10, is its brightness.
It reaches as far as its falloff radius if it has no outline. (`0x3dcccccd` is 0.1, `0x3c23d70a` 0.01, `0x41200000`
10.) -/
theorem C80_light_values (hlim : ¬ (0x41200000 : F32) <ᶠ (0x3c23d70a : F32)) {E : GltfEnv} {fuel : Nat} {o : GltfOptions}
    {vpx : VPX} {f : Gltf.File} {bin : Bytes} (h : gltfDocument E fuel o vpx = .ok (f, bin)) (j : Nat) (l : Light)
    (hj : (giLights E.U.lower vpx.gameitems)[j]? = some l) : ∃ light bright, f.lights[2 + j]? = some light ∧
    light.intensity = num bright ∧ LimitedTo 0x3c23d70a 0x41200000 (l.intensity *ᶠ 0x3dcccccd) bright ∧
    (l.drag_points = [] → light.range = num (l.falloff_radius *ᶠ o.units.scale)) ∧
    (l.drag_points ≠ [] →
      light.range = num (sqrt ((l.drag_points.map (distanceSquared l)).foldl fmax 0) *ᶠ o.units.scale)) := by
  obtain ⟨meshes, groups, nodes, place, gi, hc, hh, hgi, hch, hlen, hnode, hslot, -, hl, -, hsc, hn⟩ := scene_parts h
  obtain ⟨hgl, hget⟩ := mapM_ok_get hgi
  obtain ⟨r, hr, hg⟩ := hget j (l, j) (zipIdx_get hj)
  have hlight : f.lights[2 + j]? = some r.1 := by
    rw [hl, List.getElem?_append_right (show 2 ≤ 2 + j from Nat.le_add_right _ _)]
    show (gi.map (·.1))[2 + j - 2]? = _
    rw [Nat.add_sub_cancel_left, List.getElem?_map, hr]
    rfl
  unfold giLight at hg
  obtain ⟨z, hz, hg⟩ := Res.unbind hg
  cases hg
  refine ⟨_, fClamp (l.intensity *ᶠ f0p1) 0x3c23d70a fTen, hlight, rfl, ?_, ?_, ?_⟩
  · show LimitedTo 0x3c23d70a fTen (l.intensity *ᶠ f0p1) _
    unfold LimitedTo fClamp
    refine ⟨fun a => ?_, fun a b => ?_, fun a b => ?_⟩
    · rw [if_pos a]; exact if_neg hlim
    · rw [if_neg a]; exact if_pos b
    · rw [if_neg a]; exact if_neg b
  · intro e
    show num (lightRange _ _) = _
    unfold lightRange toUnits
    rw [e]; rfl
  · intro e
    show num (lightRange _ _) = _
    unfold lightRange toUnits
    rw [if_neg (by cases hd : l.drag_points <;> simp_all)]
    rfl

/-- **C80**: the two lights of the table are point lights of the table's colour, above the middle of the table, a third
and two thirds of its length down. Their brightness is a thousandth of the product of the two scales of the table and of
the mean of the colour; they reach as far as the table says, at most 100 of the wanted unit. (`0x40400000` is 3,
`0x3a83126f` 0.001, `0x42c80000` 100, `0x40000000` 2.) -/
theorem C80_table_lights {E : GltfEnv} {fuel : Nat} {o : GltfOptions} {vpx : VPX} {f : Gltf.File} {bin : Bytes}
    (h : gltfDocument E fuel o vpx = .ok (f, bin)) (i : Nat) (hi : i < 2) : ∃ light n,
    f.lights[i]? = some light ∧ n ∈ f.nodes ∧ n.light = some i ∧
    light.type = "point".toList ∧
    let g := vpx.gamedata
    let red := colorPart g.light0_emission.r
    let green := colorPart g.light0_emission.g
    let blue := colorPart g.light0_emission.b
    light.color = [num red, num green, num blue] ∧
    light.intensity = num (g.light_emission_scale *ᶠ g.global_emission_scale *ᶠ 0x3a83126f *ᶠ
      ((red +ᶠ green +ᶠ blue) /ᶠ 0x40400000)) ∧
    light.range = num (fmin (g.light_range *ᶠ o.units.scale) 0x42c80000) ∧
    n.translation = some ([(g.left +ᶠ g.right) /ᶠ 0x40000000, g.light_height,
      g.bottom *ᶠ (if i = 0 then 0x3eaaaaab else 0x3f2aaaab)].map fun c => num (c *ᶠ o.units.scale)) := by
  obtain ⟨meshes, groups, nodes, place, gi, hc, hh, hgi, hch, hlen, hnode, hslot, -, hl, hcam, hsc, hn⟩ := scene_parts h
  have hgl := (gi_nodes hgi).1
  obtain ⟨-, hb⟩ := before_slot (u := o.units) (vpx := vpx) (ns := gi.map (·.2))
    (ls := giLights E.U.lower vpx.gameitems) (by rw [List.length_map, hgl]) hlen [] (hslot _)
  have hp : SlotPlaced (nodes.length + i) none { place with roots := place.roots ++ [nodes.length, nodes.length + 1] } := by
    refine List.mem_append_right _ ?_
    match i, hi with
    | 0, _ => simp
    | 1, _ => simp
  match i, hi with
  | 0, _ =>
    obtain ⟨-, h2⟩ := arrange_alone (E := E) (u := o.units) (vpx := vpx) (groups := groups) hh hch hp
      (n := tableLightNode o.units vpx.gamedata "TableLight0" 0x3eaaaaab 0) (by
        rw [hb, List.append_assoc, List.getElem?_append_right (Nat.le_add_right _ _), Nat.add_sub_cancel_left]
        rfl)
    exact ⟨_, _, by rw [hl]; rfl, List.mem_of_getElem? (by rw [hn]; exact getElem?_snoc_old h2), rfl, rfl, rfl, rfl, rfl, rfl⟩
  | 1, _ =>
    obtain ⟨-, h2⟩ := arrange_alone (E := E) (u := o.units) (vpx := vpx) (groups := groups) hh hch hp
      (n := tableLightNode o.units vpx.gamedata "TableLight1" 0x3f2aaaab 1) (by
        rw [hb, List.append_assoc, List.getElem?_append_right (Nat.le_add_right _ _), Nat.add_sub_cancel_left]
        rfl)
    exact ⟨_, _, by rw [hl]; rfl, List.mem_of_getElem? (by rw [hn]; exact getElem?_snoc_old h2), rfl, rfl, rfl, rfl, rfl, rfl⟩

end

/-- **C80**: with IEEE numbers a light with an outline reaches to its farthest point, if no distance is too large for the
numbers. -/
theorem C80_light_reach (sin cos : F32 → F32) (pow : F32 → F32 → F32) (l : Light)
    (hfin : ∀ p ∈ l.drag_points, (@distanceSquared (ieee sin cos pow) l p).isFinite = true) :
    letI := ieee sin cos pow
    let far := (l.drag_points.map (distanceSquared l)).foldl fmax 0
    (far = 0 ∨ ∃ p ∈ l.drag_points, far = distanceSquared l p) ∧
    ∀ p ∈ l.drag_points, (distanceSquared l p).val ≤ far.val := by
  letI := ieee sin cos pow
  have := fold_fmax sin cos pow (l.drag_points.map (distanceSquared l)) 0 (by decide) (by
    intro x hx
    obtain ⟨p, hp, rfl⟩ := List.mem_map.1 hx
    exact hfin p hp)
  refine ⟨?_, fun p hp => this.2 _ (List.mem_cons_of_mem _ (List.mem_map_of_mem hp))⟩
  rcases List.mem_cons.1 this.1 with h | h
  · exact .inl h
  · obtain ⟨p, hp, e⟩ := List.mem_map.1 h
    exact .inr ⟨p, hp, e.symm⟩

/-! ### Examples -/

section
attribute [local instance] ieeeExact

/-- the light GI_1 of the example of `C75` has an intensity of 1 and so a brightness of 0.1; the lights of the table
are limited to 100 -/
example : ¬ (0x41200000 : F32) <ᶠ (0x3c23d70a : F32) ∧
    ((gltfDocument gltfSample 10 .default gltfTable).toOption.map fun r => r.1.lights.map fun l => (l.intensity, l.range)) =
      some [(some 0x44500000, some 0x42c80000), (some 0x44500000, some 0x42c80000), (some 0x3dcccccd, some 0)] ∧
    (giLights gltfSample.U.lower gltfTable.gameitems)[0]?.map (·.intensity) = some f32One := by
  refine ⟨by decide +kernel, by decide +kernel, by decide +kernel⟩

/-- a light at the origin with the outline (3, 4), (-1, 0): the farthest point is 5 away -/
def cornerLight : Light :=
  { Light.default with center := ⟨0, 0⟩, drag_points := [{ DragPoint.default with x := 0x40400000, y := 0x40800000 },
      { DragPoint.default with x := 0xbf800000, y := 0 }] }

example : (∀ p ∈ cornerLight.drag_points, (distanceSquared cornerLight p).isFinite = true) ∧
    lightRange .vpu cornerLight = 0x40a00000 := by
  constructor <;> decide +kernel

/-- a table whose lights reach 3000 units far (1.62 m) -/
def farTable : VPX := { gltfTable with gamedata := { gltfTable.gamedata with light_range := 0x453b8000 } }

/-- **C80**, what does not hold: the lights of the table do not reach equally far in all units. They are limited to 100
of the wanted unit (which in the code is said to be metres): in metres the lights of this table reach 3000 units far, in
units of Visual Pinball they reach 100 units. -/
theorem C80_reach_counterexample :
    ((gltfDocument gltfSample 10 { GltfOptions.default with units := .m } farTable).toOption.map fun r =>
      r.1.lights[0]?.map (·.range)) = some (some (num (farTable.gamedata.light_range *ᶠ ExportUnits.m.scale))) ∧
    ((gltfDocument gltfSample 10 { GltfOptions.default with units := .vpu } farTable).toOption.map fun r =>
      r.1.lights[0]?.map (·.range)) = some (some (num 0x42c80000)) ∧
    (0x42c80000 : F32) <ᶠ farTable.gamedata.light_range *ᶠ ExportUnits.vpu.scale := by
  refine ⟨by decide +kernel, by decide +kernel, by decide +kernel⟩

end
end Vpin
