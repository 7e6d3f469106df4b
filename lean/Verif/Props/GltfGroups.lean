import Verif.Props.GltfItems
import Verif.Props.GltfScene
import Verif.Spec.GltfGroups
import Verif.Lemmas.GltfGroups
/-
C80: items and layers in the glTF scene.
-/
namespace Vpin
open Arith Scene

section
variable [Arith]

omit [Arith] in
theorem giLights_eq (U : Unicode) (items : List GameItemEnum) :
    items.filterMap (isGiLight U) = giLights U.lower items := by
  unfold giLights
  congr 1
  funext i
  cases i with
  | light l =>
    unfold isGiLight
    dsimp only
    have e : ∀ s : Str, "gi".toList.isPrefixOf s = decide (s.take 2 = "gi".toList) := by
      intro s
      match s with
      | [] => rfl
      | [a] =>
        show ('g' == a && false) = decide ([a] = ['g', 'i'])
        rw [Bool.and_false, eq_comm, decide_eq_false_iff_not]
        exact fun h => List.cons_ne_nil _ _ (List.cons.inj h).2.symm
      | a :: b :: s =>
        show ('g' == a && ('i' == b && true)) = decide ([a, b] = ['g', 'i'])
        rw [Bool.and_true, Bool.eq_iff_iff, Bool.and_eq_true, beq_iff_eq, beq_iff_eq, decide_eq_true_iff]
        exact ⟨fun h => by rw [← h.1, ← h.2], fun h => ⟨(List.cons.inj h).1.symm, (List.cons.inj (List.cons.inj h).2).1.symm⟩⟩
    rw [e]
    cases l.is_backglass <;> by_cases h : (U.lower l.name).take 2 = "gi".toList <;> simp [h]
  | _ => rfl

/-- the groups of the items: one of each that has given something -/
theorem collectItem_group {E : GltfEnv} {fuel : Nat} {o : GltfOptions} {vpx : VPX} {it : GameItemEnum} {c : Collected}
    (h : collectItem E fuel o vpx it = .ok c) : c.groups = [] ∨
      c.groups = [⟨it.name, layerOf it.editor_layer_name it.editor_layer, E.extras it⟩] := by
  rcases collectItem_owned h with ⟨h, _⟩ | ⟨a, ⟨h1, h2⟩, hg, _⟩
  · exact .inl h
  · refine .inr ?_
    rw [hg, h1, h2]
    unfold itemGroup
    rw [layerName_of]

/-- the groups before and after that of an item whose name no other item has -/
theorem groups_split {E : GltfEnv} {fuel : Nat} {o : GltfOptions} {vpx : VPX} {meshes : List NamedMesh}
    {groups : List ItemGroup} (h : collectMeshes E fuel o vpx = .ok (meshes, groups)) {i : Nat} {item : GameItemEnum}
    (hi : vpx.gameitems[i]? = some item)
    (hu : ∀ (j : Nat) it, vpx.gameitems[j]? = some it → it.name = item.name → j = i)
    (hn : item.name ∈ groups.map (·.name)) : ∃ pre post, groups = pre ++
      ⟨item.name, layerOf item.editor_layer_name item.editor_layer, E.extras item⟩ :: post ∧
      item.name ∉ pre.map (·.name) ∧ item.name ∉ post.map (·.name) := by
  obtain ⟨cs, hc, rfl, -⟩ := collectMeshes_parts h
  obtain ⟨hlen, hget⟩ := mapM_ok_get hc
  have hname : ∀ (j : Nat) c, cs[j]? = some c → j ≠ i → ∀ g ∈ c.groups, g.name ≠ item.name := by
    intro j c hj hji g hg he
    have hj' : j < vpx.gameitems.length := hlen ▸ (List.getElem?_eq_some_iff.mp hj).1
    obtain ⟨c', h1, h2⟩ := hget j _ (List.getElem?_eq_getElem hj')
    rw [hj] at h1
    cases h1
    rcases collectItem_group h2 with h3 | h3
    · rw [h3] at hg; cases hg
    · rw [h3] at hg
      rw [List.mem_singleton.mp hg] at he
      exact hji (hu j _ (List.getElem?_eq_getElem hj') he)
  obtain ⟨c, h1, h2⟩ := hget i item hi
  obtain ⟨hil, hic⟩ := List.getElem?_eq_some_iff.mp h1
  have hsplit : cs = cs.take i ++ c :: cs.drop (i + 1) := by
    rw [← hic, List.getElem_cons_drop, List.take_append_drop]
  have hpre : item.name ∉ ((cs.take i).flatMap (·.groups)).map (·.name) := by
    intro hm
    obtain ⟨g, hg, he⟩ := List.mem_map.mp hm
    obtain ⟨x, hx, hgx⟩ := List.mem_flatMap.mp hg
    obtain ⟨j, hj⟩ := List.mem_iff_getElem?.mp hx
    have hji : j < i := by
      have := (List.getElem?_eq_some_iff.mp hj).1
      rw [List.length_take] at this
      omega
    rw [List.getElem?_take_of_lt hji] at hj
    exact hname j x hj (by omega) g hgx he
  have hpost : item.name ∉ ((cs.drop (i + 1)).flatMap (·.groups)).map (·.name) := by
    intro hm
    obtain ⟨g, hg, he⟩ := List.mem_map.mp hm
    obtain ⟨x, hx, hgx⟩ := List.mem_flatMap.mp hg
    obtain ⟨j, hj⟩ := List.mem_iff_getElem?.mp hx
    rw [List.getElem?_drop] at hj
    exact hname _ x hj (by omega) g hgx he
  have hall : cs.flatMap (·.groups) = (cs.take i).flatMap (·.groups) ++ (c.groups ++
      (cs.drop (i + 1)).flatMap (·.groups)) := by
    conv => lhs; rw [hsplit]
    rw [List.flatMap_append, List.flatMap_cons]
  rcases collectItem_group h2 with h3 | h3
  · exfalso
    rw [hall, h3, List.nil_append, List.map_append] at hn
    rcases List.mem_append.mp hn with hn | hn
    · exact hpre hn
    · exact hpost hn
  · refine ⟨(cs.take i).flatMap (·.groups), (cs.drop (i + 1)).flatMap (·.groups), ?_, hpre, hpost⟩
    rw [hall, h3]
    rfl

/-- the parts of a document -/
theorem scene_parts {E : GltfEnv} {fuel : Nat} {o : GltfOptions} {vpx : VPX} {f : Gltf.File} {bin : Bytes}
    (h : gltfDocument E fuel o vpx = .ok (f, bin)) : ∃ meshes groups nodes place gi,
      collectMeshes E fuel o vpx = .ok (meshes, groups) ∧ Hung nodes place ∧
      (giLights E.U.lower vpx.gameitems).zipIdx.mapM (giLight fuel o.units vpx) = .ok gi ∧
      (∀ l ∈ (giLights E.U.lower vpx.gameitems).zip (gi.map (·.2)), l.2.children = none) ∧
      nodes.length = meshes.length ∧
      (∀ (k : Nat) (m : NamedMesh), meshes[k]? = some m → nodes[k]? = some (meshNode m k)) ∧
      (∀ name, slot place.items name = meshes.zipIdx.filterMap fun m => if m.1.group = some name then some m.2 else none) ∧
      (∀ (k : Nat) (m : NamedMesh), meshes[k]? = some m → m.group = none → SlotPlaced k m.layer place) ∧
      f.lights = [tableLight o.units vpx.gamedata "TableLight0", tableLight o.units vpx.gamedata "TableLight1"] ++
        gi.map (·.1) ∧
      f.cameras = (E.cameras vpx).map GltfCamera.definition ∧
      let a := arrangeNodes E o.units vpx groups ((giLights E.U.lower vpx.gameitems).zip (gi.map (·.2))) nodes place
      f.scenes[f.scene]? = some [a.1.length] ∧
      f.nodes = a.1 ++ [{ emptyNode (if vpx.gamedata.name.isEmpty then "Table".toList else vpx.gamedata.name) with
        children := some a.2, extras := some (E.tableExtras vpx.gamedata) }] := by
  obtain ⟨meshes, groups, hc, hb⟩ := gltfDocument_ok h
  obtain ⟨hne, start, textured, gi, h1, h2, h3, hr⟩ := buildScene_ok hb
  obtain ⟨ht, _, _⟩ := scene_textures h1 h2
  have hg := scene_meshes_good (E := E) (u := o.units) (vpx := vpx) (meshes := meshes)
    (materials := collectMaterials vpx.gamedata) (start := start) ht.good
  have hgi := gi_nodes h3
  obtain rfl : f = (sceneFile E o.units vpx meshes groups (collectMaterials vpx.gamedata) start textured gi).1 :=
    congrArg Prod.fst hr
  rw [← giLights_eq]
  have hnodes : (sceneMeshes E o.units vpx meshes (collectMaterials vpx.gamedata) start textured).nodes =
      meshes.zipIdx.map fun m => meshNode m.1 m.2 := by
    have := mesh_nodes (u := o.units) (mat := materialOf E.U (sceneMaterials E vpx meshes
      (collectMaterials vpx.gamedata) start textured)
      (sceneNames E (collectMaterials vpx.gamedata) start).1) meshes.zipIdx
        ⟨textured.1.bin, textured.1.views, [], [], [], ⟨[], [], []⟩⟩
    exact this.trans (by simp)
  refine ⟨meshes, groups, (sceneMeshes E o.units vpx meshes (collectMaterials vpx.gamedata) start textured).nodes,
    (sceneMeshes E o.units vpx meshes (collectMaterials vpx.gamedata) start textured).place, gi, hc, hg.hung, h3,
    fun l hl => (hgi.2 _ (List.of_mem_zip hl).2).1, ?_, ?_, ?_, ?_, rfl, rfl, rfl, rfl⟩
  · rw [hnodes]
    simp
  · intro k m hk
    rw [hnodes, List.getElem?_map, zipIdx_get hk]
    rfl
  · intro name
    have := slot_meshes (u := o.units) (mat := materialOf E.U (sceneMaterials E vpx meshes
      (collectMaterials vpx.gamedata) start textured)
      (sceneNames E (collectMaterials vpx.gamedata) start).1) name meshes
        ⟨textured.1.bin, textured.1.views, [], [], [], ⟨[], [], []⟩⟩
    exact this.trans (List.nil_append _)
  · intro k m hk hm
    have := place_alone (u := o.units) (mat := materialOf E.U (sceneMaterials E vpx meshes
      (collectMaterials vpx.gamedata) start textured)
      (sceneNames E (collectMaterials vpx.gamedata) start).1) meshes
        ⟨textured.1.bin, textured.1.views, [], [], [], ⟨[], [], []⟩⟩ k m hk hm
    dsimp only [List.length_nil] at this
    rw [Nat.zero_add] at this
    exact this

omit [Arith] in
theorem zipIdx_names {g : Nat → Option Nat} (name : Str) : ∀ (ls : List Light) (k d : Nat), (∀ n, g n = some (d + n)) →
    ((ls.map (·.name)).zipIdx (d + k)).filterMap (fun l => if l.1 = name then some l.2 else none) =
      (ls.zipIdx k).filterMap fun l => if l.1.name = name then g l.2 else none
  | [], _, _, _ => rfl
  | l :: ls, k, d, hg => by
    rw [List.map_cons, List.zipIdx_cons, List.zipIdx_cons, List.filterMap_cons, List.filterMap_cons, Nat.add_assoc d k 1,
      zipIdx_names name ls (k + 1) d hg]
    dsimp only
    rw [hg]

theorem before_slot {u : ExportUnits} {vpx : VPX} {meshes : List NamedMesh} {ls : List Light} {ns : List Gltf.Node}
    (hlen : ns.length = ls.length) {nodes : List Gltf.Node} {place : Placement} (hn : nodes.length = meshes.length)
    (name : Str) (hs : slot place.items name =
      meshes.zipIdx.filterMap fun m => if m.1.group = some name then some m.2 else none) :
    slot (beforeGroups u vpx (ls.zip ns) nodes place).2.items name = nodesOf meshes ls name ∧
      (beforeGroups u vpx (ls.zip ns) nodes place).1 = nodes ++ [tableLightNode u vpx.gamedata "TableLight0" 0x3eaaaaab 0,
        tableLightNode u vpx.gamedata "TableLight1" 0x3f2aaaab 1] ++ ns := by
  obtain ⟨h1, h2⟩ := slot_lights name (ls.zip ns) (nodes ++ [tableLightNode u vpx.gamedata "TableLight0" 0x3eaaaaab 0,
      tableLightNode u vpx.gamedata "TableLight1" 0x3f2aaaab 1],
      { place with roots := place.roots ++ [nodes.length, nodes.length + 1] })
  have e1 : (ls.zip ns).map (·.1.name) = ls.map (·.name) := by
    have : (ls.zip ns).map (·.1.name) = ((ls.zip ns).map Prod.fst).map (·.name) := by rw [List.map_map]; rfl
    rw [this, List.map_fst_zip (by omega)]
  have e2 : (ls.zip ns).map (·.2) = ns := List.map_snd_zip (by omega)
  have e3 : (nodes ++ [tableLightNode u vpx.gamedata "TableLight0" 0x3eaaaaab 0,
      tableLightNode u vpx.gamedata "TableLight1" 0x3f2aaaab 1]).length = meshes.length + 2 + 0 := by
    rw [List.length_append, hn]
    rfl
  unfold beforeGroups
  refine ⟨?_, by rw [h2, e2]⟩
  rw [h1, e1]
  unfold nodesOf
  dsimp only
  rw [hs, e3, zipIdx_names (g := fun n => some (meshes.length + 2 + n)) name ls 0 (meshes.length + 2) (fun _ => rfl)]

omit [Arith] in
theorem inLayer_of {f : Gltf.File} {L : Str → Nat} {a : List Gltf.Node × List Nat} {layer : Option Str} {t : Nat}
    {r : Gltf.Node} (hs : f.scenes[f.scene]? = some [a.1.length]) (hn : f.nodes = a.1 ++ [r]) (hr : r.children = some a.2)
    (h : At L a t layer) : InLayer f L layer t := by
  refine ⟨a.1.length, r, hs, ?_, ?_⟩
  · rw [hn, List.getElem?_append_right (Nat.le_refl _), Nat.sub_self]
    rfl
  · rw [hr]
    cases layer with
    | none => exact h
    | some l =>
      obtain ⟨h1, cs, h2, h3⟩ := h
      refine ⟨h1, { emptyNode l with children := some cs }, ?_, rfl, rfl, rfl, rfl, rfl, rfl, rfl, rfl, h3⟩
      rw [hn]
      exact getElem?_snoc_old h2

omit [Arith] in
theorem snoc_last {α : Type} (l : List α) (a : α) : (l ++ [a])[l.length]? = some a := by
  rw [List.getElem?_append_right (Nat.le_refl _), Nat.sub_self]
  rfl

/-! ### C80 -/

/-- **C80**: the nodes of every item are one node of the scene, which holds the data of the item: its only node, or a
node with its name and all its nodes as children. That node is in the layer of the item, which is a node of the scene
with all items of the layer. The meshes that are not of an item, such as the playfield, are at the root. -/
theorem C80_items {E : GltfEnv} {fuel : Nat} {o : GltfOptions} {vpx : VPX} {f : Gltf.File} {bin : Bytes}
    (h : gltfDocument E fuel o vpx = .ok (f, bin)) : ∃ meshes groups, collectMeshes E fuel o vpx = .ok (meshes, groups) ∧
    ∃ layerNode : Str → Nat,
    (∀ (i : Nat) (item : GameItemEnum), vpx.gameitems[i]? = some item →
      (∀ (j : Nat) (other : GameItemEnum), vpx.gameitems[j]? = some other → other.name = item.name → j = i) →
      let own := nodesOf meshes (giLights E.U.lower vpx.gameitems) item.name
      own ≠ [] → ∃ t n, f.nodes[t]? = some n ∧ n.extras = some (E.extras item) ∧
        (own = [t] ∨ 2 ≤ own.length ∧ n.name = item.name ∧ n.children = some own ∧ n.mesh = none ∧ n.light = none ∧
          n.camera = none ∧ n.translation = none ∧ n.rotation = none ∧ n.scale = none ∧ n.visible = none) ∧
        InLayer f layerNode (layerOf item.editor_layer_name item.editor_layer) t) ∧
    ∀ (k : Nat) (m : NamedMesh), meshes[k]? = some m → m.group = none →
      InLayer f layerNode m.layer k ∧ ∃ n, f.nodes[k]? = some n ∧ n.extras = none := by
  obtain ⟨meshes, groups, nodes, place, gi, hc, hh, hgi, hch, hlen, hnode, hslot, halone, -, -, hsc, hn⟩ := scene_parts h
  refine ⟨meshes, groups, hc, arrangeLayer E o.units vpx groups
    ((giLights E.U.lower vpx.gameitems).zip (gi.map (·.2))) nodes place, ?_, ?_⟩
  · intro i item hi hu own hown
    have hgl : (gi.map (·.2)).length = (giLights E.U.lower vpx.gameitems).length := by
      rw [List.length_map, (gi_nodes hgi).1]
    obtain ⟨hs, -⟩ := before_slot (u := o.units) (vpx := vpx) hgl hlen item.name (hslot _)
    have hname : item.name ∈ groups.map (·.name) := by
      obtain ⟨h1, h2, _⟩ := collectMeshes_groups hc
      rw [giLights_eq] at h2
      obtain ⟨x, hx⟩ := List.exists_mem_of_ne_nil _ hown
      rcases List.mem_append.mp hx with hx | hx
      · obtain ⟨m, hm, hx⟩ := List.mem_filterMap.mp hx
        have := List.mem_zipIdx' (x := m.1) (i := m.2) hm
        by_cases hg : m.1.group = some item.name
        · exact h1 m.1 (by rw [this.2]; exact List.getElem_mem _) _ hg
        · rw [if_neg hg] at hx; cases hx
      · obtain ⟨l, hl, hx⟩ := List.mem_filterMap.mp hx
        have := List.mem_zipIdx' (x := l.1) (i := l.2) hl
        by_cases hg : l.1.name = item.name
        · exact hg ▸ h2 l.1 (by rw [this.2]; exact List.getElem_mem _)
        · rw [if_neg hg] at hx; cases hx
    obtain ⟨pre, post, hsplit, hpre, -⟩ := groups_split hc hi hu hname
    obtain ⟨t, n, h1, h2, h3, h4⟩ := arrange_item (E := E) (u := o.units) (vpx := vpx) (post := post)
      (g := ⟨item.name, layerOf item.editor_layer_name item.editor_layer, E.extras item⟩) hh hch hpre
      (by dsimp only; rw [hs]; exact hown)
    rw [← hsplit] at h1 h4
    dsimp only at h2 h3 h4
    rw [hs] at h3
    refine ⟨t, n, by rw [hn]; exact getElem?_snoc_old h1, h2, ?_, inLayer_of hsc hn rfl h4⟩
    rcases h3 with h3 | ⟨h3, rfl⟩
    · exact .inl h3
    · exact .inr ⟨h3, rfl, rfl, rfl, rfl, rfl, rfl, rfl, rfl, rfl⟩
  · intro k m hk hm
    have hgl : (gi.map (·.2)).length = (giLights E.U.lower vpx.gameitems).length := by
      rw [List.length_map, (gi_nodes hgi).1]
    obtain ⟨-, hb⟩ := before_slot (u := o.units) (vpx := vpx) hgl hlen [] (hslot _)
    have hp : SlotPlaced k m.layer { place with roots := place.roots ++ [nodes.length, nodes.length + 1] } := by
      have := halone k m hk hm
      generalize m.layer = layer at this
      cases layer with
      | none => exact List.mem_append_left _ this
      | some l => exact this
    obtain ⟨h1, h2⟩ := arrange_alone (E := E) (u := o.units) (vpx := vpx) (groups := groups) hh hch hp
      (n := meshNode m k) (by
        rw [hb, List.getElem?_append_left, List.getElem?_append_left]
        · exact hnode k m hk
        · rw [hlen]; exact (List.getElem?_eq_some_iff.mp hk).1
        · have := (List.getElem?_eq_some_iff.mp hk).1
          rw [List.length_append, hlen]
          omega)
    exact ⟨inLayer_of hsc hn rfl h1, _, by rw [hn]; exact getElem?_snoc_old h2, rfl⟩

/-- **C80**: the lights of the general illumination are point lights of the scene with the colors of the items, 10 mm
above what they stand on if they have no height of their own. They are the lights after the two of the table, and their
nodes come after those of the table's lights. -/
theorem C80_lights {E : GltfEnv} {fuel : Nat} {o : GltfOptions} {vpx : VPX} {f : Gltf.File} {bin : Bytes}
    (h : gltfDocument E fuel o vpx = .ok (f, bin)) : ∃ meshes groups, collectMeshes E fuel o vpx = .ok (meshes, groups) ∧
    f.lights.length = 2 + (giLights E.U.lower vpx.gameitems).length ∧
    ∀ (j : Nat) (l : Light), (giLights E.U.lower vpx.gameitems)[j]? = some l → ∃ below light n,
      surfaceHeight fuel l.surface l.center.x l.center.y vpx.gameitems = .ok below ∧
      f.lights[2 + j]? = some light ∧ light.name = l.name ∧ light.type = "point".toList ∧
      light.color = [l.color.r, l.color.g, l.color.b].map (fun c => num (colorPart c)) ∧
      f.nodes[meshes.length + 2 + j]? = some n ∧ n.name = l.name ++ "_light".toList ∧ n.light = some (2 + j) ∧
      n.mesh = none ∧ n.camera = none ∧ n.children = none ∧ n.rotation = none ∧ n.scale = none ∧ n.visible = none ∧
      let own := (lightHeight l vpx.version).getD 0
      n.translation = some ([l.center.x, below +ᶠ (if own.abs <ᶠ 0x3a83126f then fTen /ᶠ ExportUnits.mm.scale else own),
        l.center.y].map fun c => num (toUnits o.units c)) := by
  obtain ⟨meshes, groups, nodes, place, gi, hc, hh, hgi, hch, hlen, hnode, hslot, -, hl, -, hsc, hn⟩ := scene_parts h
  obtain ⟨hgl, hget⟩ := mapM_ok_get hgi
  rw [List.length_zipIdx] at hgl
  refine ⟨meshes, groups, hc, ?_, ?_⟩
  · rw [hl, List.length_append, List.length_map, hgl]
    rfl
  · intro j l hj
    obtain ⟨r, hr, hg⟩ := hget j (l, j) (zipIdx_get hj)
    have hlight : f.lights[2 + j]? = some r.1 := by
      rw [hl, List.getElem?_append_right (show 2 ≤ 2 + j from Nat.le_add_right _ _)]
      show (gi.map (·.1))[2 + j - 2]? = _
      rw [Nat.add_sub_cancel_left, List.getElem?_map, hr]
      rfl
    unfold giLight giHeight at hg
    obtain ⟨z, hz, hg⟩ := Res.unbind hg
    obtain ⟨below, hbelow, hz⟩ := Res.unbind hz
    cases hz
    cases hg
    have hb : (beforeGroups o.units vpx ((giLights E.U.lower vpx.gameitems).zip (gi.map (·.2))) nodes place).1[
        meshes.length + 2 + j]? = (gi.map (·.2))[j]? := by
      obtain ⟨-, hb⟩ := before_slot (u := o.units) (vpx := vpx) (ns := gi.map (·.2))
        (ls := giLights E.U.lower vpx.gameitems) (by rw [List.length_map, hgl]) hlen [] (hslot _)
      rw [hb]
      have e : (nodes ++ [tableLightNode o.units vpx.gamedata "TableLight0" 0x3eaaaaab 0,
          tableLightNode o.units vpx.gamedata "TableLight1" 0x3f2aaaab 1]).length = meshes.length + 2 := by
        rw [List.length_append, hlen]
        rfl
      rw [List.getElem?_append_right (by omega), e, Nat.add_sub_cancel_left]
    rw [List.getElem?_map, hr] at hb
    obtain ⟨x, hx⟩ := before_keeps E o.units vpx groups _ nodes place _ _ hb
    have hnd := getElem?_snoc_old hx (b := { emptyNode (if vpx.gamedata.name.isEmpty then "Table".toList else vpx.gamedata.name) with
      children := some (arrangeNodes E o.units vpx groups ((giLights E.U.lower vpx.gameitems).zip (gi.map (·.2))) nodes
        place).2, extras := some (E.tableExtras vpx.gamedata) })
    rw [← hn] at hnd
    refine ⟨below, _, _, hbelow, hlight, rfl, rfl, rfl, hnd, rfl, ?_, rfl, rfl, rfl, rfl, rfl, rfl, rfl⟩
    show some (j + 2) = _
    rw [Nat.add_comm]

/-- **C80**: the root has the name and the data of the table, and among its children are the two lights of the table
and the cameras. -/
theorem C80_root {E : GltfEnv} {fuel : Nat} {o : GltfOptions} {vpx : VPX} {f : Gltf.File} {bin : Bytes}
    (h : gltfDocument E fuel o vpx = .ok (f, bin)) : ∃ root r children, f.scenes[f.scene]? = some [root] ∧
    f.nodes[root]? = some r ∧ r.name = (if vpx.gamedata.name = [] then "Table".toList else vpx.gamedata.name) ∧
    r.extras = some (E.tableExtras vpx.gamedata) ∧ r.children = some children ∧
    (∀ i < 2, ∃ c ∈ children, ∃ n light, f.nodes[c]? = some n ∧ n.light = some i ∧ n.extras = none ∧
      f.lights[i]? = some light ∧ n.name = light.name ∧ light.name = "TableLight".toList ++ decimal i) ∧
    f.cameras.length = (E.cameras vpx).length ∧
    ∀ (i : Nat) (camera : GltfCamera), (E.cameras vpx)[i]? = some camera → ∃ c ∈ children, ∃ n view,
      f.nodes[c]? = some n ∧ n.camera = some i ∧ n.name = camera.name ∧ n.extras = none ∧
      n.translation = some (vec3Nums camera.position) ∧
      n.rotation = some (([camera.rotation.1, camera.rotation.2.1, camera.rotation.2.2.1, camera.rotation.2.2.2]).map num) ∧
      n.scale = none ∧ f.cameras[i]? = some view ∧ view.name = camera.name ∧ view.type = "perspective".toList ∧
      view.yfov = num camera.yfov ∧ view.znear = num camera.znear ∧ view.zfar = num camera.zfar := by
  obtain ⟨meshes, groups, nodes, place, gi, hc, hh, hgi, hch, hlen, hnode, hslot, -, hl, hcam, hsc, hn⟩ := scene_parts h
  have hgl := (gi_nodes hgi).1
  obtain ⟨-, hb⟩ := before_slot (u := o.units) (vpx := vpx) (ns := gi.map (·.2))
    (ls := giLights E.U.lower vpx.gameitems) (by rw [List.length_map, hgl]) hlen [] (hslot _)
  have hroot := snoc_last (arrangeNodes E o.units vpx groups ((giLights E.U.lower vpx.gameitems).zip (gi.map (·.2))) nodes
    place).1 { emptyNode (if vpx.gamedata.name.isEmpty then "Table".toList else vpx.gamedata.name) with
      children := some (arrangeNodes E o.units vpx groups ((giLights E.U.lower vpx.gameitems).zip (gi.map (·.2))) nodes
        place).2, extras := some (E.tableExtras vpx.gamedata) }
  rw [← hn] at hroot
  refine ⟨_, _, _, hsc, hroot, ?_, rfl, rfl, ?_, ?_, ?_⟩
  · cases vpx.gamedata.name <;> rfl
  · intro i hi
    have hp : SlotPlaced (nodes.length + i) none { place with roots := place.roots ++ [nodes.length, nodes.length + 1] } := by
      refine List.mem_append_right _ ?_
      match i, hi with
      | 0, _ => simp
      | 1, _ => simp
    match i, hi with
    | 0, _ =>
      obtain ⟨h1, h2⟩ := arrange_alone (E := E) (u := o.units) (vpx := vpx) (groups := groups) hh hch hp
        (n := tableLightNode o.units vpx.gamedata "TableLight0" 0x3eaaaaab 0) (by
          rw [hb, List.append_assoc, List.getElem?_append_right (Nat.le_add_right _ _), Nat.add_sub_cancel_left]
          rfl)
      refine ⟨_, h1, _, _, by rw [hn]; exact getElem?_snoc_old h2, rfl, rfl, by rw [hl]; rfl, rfl, ?_⟩
      show "TableLight0".toList = _
      decide +kernel
    | 1, _ =>
      obtain ⟨h1, h2⟩ := arrange_alone (E := E) (u := o.units) (vpx := vpx) (groups := groups) hh hch hp
        (n := tableLightNode o.units vpx.gamedata "TableLight1" 0x3f2aaaab 1) (by
          rw [hb, List.append_assoc, List.getElem?_append_right (Nat.le_add_right _ _), Nat.add_sub_cancel_left]
          rfl)
      refine ⟨_, h1, _, _, by rw [hn]; exact getElem?_snoc_old h2, rfl, rfl, by rw [hl]; rfl, rfl, ?_⟩
      show "TableLight1".toList = _
      decide +kernel
  · rw [hcam, List.length_map]
  · intro i camera hi
    obtain ⟨q, h1, h2⟩ := arrange_cameras E o.units vpx groups
      ((giLights E.U.lower vpx.gameitems).zip (gi.map (·.2))) nodes place hi
    refine ⟨q, h1, _, camera.definition, by rw [hn]; exact getElem?_snoc_old h2, rfl, rfl, rfl, rfl, rfl, rfl, ?_, rfl, rfl, rfl, rfl, rfl⟩
    rw [hcam, List.getElem?_map, hi]
    rfl

end

/-! ### Examples -/

section
attribute [local instance] ieeeExact

/-- the nodes of the example of `C75`: the item of the light has three, two meshes and the light -/
example : ((collectMeshes gltfSample 10 .default gltfTable).toOption.map fun r =>
      gltfTable.gameitems.map fun i => (i.name, nodesOf r.1 (giLights gltfSample.U.lower gltfTable.gameitems) i.name)) =
    some (gltfTable.gameitems.map fun i => (i.name, if i.name = "GI_1".toList then [3, 4, 9] else
      if i.name = "P".toList then [0] else if i.name = "S".toList then [1] else if i.name = "Q".toList then [2] else
      if i.name = "Ball".toList then [5] else [])) := by decide +kernel

/-- and it is in a layer -/
example : (gltfTable.gameitems.find? fun i => i.name = "GI_1".toList).map (fun i =>
    layerOf i.editor_layer_name i.editor_layer) = some (some "Layer_3".toList) := by decide +kernel

/-- its name is its own -/
example : (gltfTable.gameitems.map (·.name)).Nodup := by decide +kernel

/-- a table with two lights of one name in two layers -/
def sameNameTable : VPX :=
  { gltfTable with
    gameitems := [.light { Light.default with
        name := "GI".toList, show_bulb_mesh := true, shared := { Light.default.shared with editor_layer := some 2 } },
      .light { Light.default with
        name := "GI".toList, show_bulb_mesh := true, shared := { Light.default.shared with editor_layer := some 5 } }] }

/-- **C80**, the claim that would be too strong: every item has a node of its own, in its layer. Of two items with one name
the parts are all put in the node of the first, in its layer, and the layer of the second is not in the scene. -/
theorem C80_same_name_counterexample :
    ((gltfDocument gltfSample 10 .default sameNameTable).toOption.map fun r =>
      r.1.nodes.filterMap fun n => n.children.map fun c => (n.name, c)) =
    some [("GI".toList, [0, 1, 2, 3, 7, 8]), ("Layer_3".toList, [9]), ("Table".toList, [4, 5, 6, 10, 11])] ∧
    sameNameTable.gameitems.map (fun i => layerOf i.editor_layer_name i.editor_layer) =
      [some "Layer_3".toList, some "Layer_6".toList] := by
  constructor <;> decide +kernel

end
end Vpin
