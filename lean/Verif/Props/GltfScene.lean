import Verif.Lemmas.GltfData
import Verif.Lemmas.GltfBounds
import Verif.Lemmas.GltfInside
import Verif.Lemmas.GltfSample
/-
The glTF file of a table, as the exporter writes it for every table: its parts fit and its scene is a tree (C75), and
its data are the collected meshes (C76). `Gltf.File.read` reads the JSON by the rules of glTF.
-/
namespace Vpin
section
variable [Arith]
open Arith
open Gltf (File)

/-! ### C75: the document -/

/-- C75: a reader finds in the JSON what the exporter meant -/
theorem C75_document_read {E : GltfEnv} {fuel : Nat} {o : GltfOptions} {vpx : VPX} {f : File} {bin : Bytes}
    (h : gltfDocument E fuel o vpx = .ok (f, bin)) : File.read f.json = some f := by
  obtain ⟨meshes, groups, hc, hb⟩ := gltfDocument_ok h
  exact File.read_json f (scene_read hb (collectMeshes_groups hc).2.2)

/-- C75: all that the parts of the document refer to is there: views are in the data and do not overlap, accessors
fill their views, meshes have positions, normals, texture coordinates and triangles, and materials, textures, images,
samplers, lights and cameras exist; the extensions in use are declared -/
theorem C75_document_sound {E : GltfEnv} {fuel : Nat} {o : GltfOptions} {vpx : VPX} {f : File} {bin : Bytes}
    (h : gltfDocument E fuel o vpx = .ok (f, bin)) : f.Sound bin := by
  obtain ⟨meshes, groups, hc, hb⟩ := gltfDocument_ok h
  exact scene_sound hb

/-- C75: the nodes are a tree below one root -/
theorem C75_scene_tree {E : GltfEnv} {fuel : Nat} {o : GltfOptions} {vpx : VPX} {f : File} {bin : Bytes}
    (h : gltfDocument E fuel o vpx = .ok (f, bin)) : ∃ root, f.Tree root := by
  obtain ⟨meshes, groups, hc, hb⟩ := gltfDocument_ok h
  obtain ⟨h1, h2, _⟩ := collectMeshes_groups hc
  exact ⟨_, scene_tree hb h1 h2⟩

/-! ### C76: the data -/

/-- C76: mesh `k` of the file is the `k`-th collected mesh: positions in the units of the export with y and z exchanged,
normals likewise, texture coordinates as they are, and triangles turned around, because exchanging two axes mirrors the
scene -/
theorem C76_mesh_data {E : GltfEnv} {fuel : Nat} {o : GltfOptions} {vpx : VPX} {f : File} {bin : Bytes}
    (h : gltfDocument E fuel o vpx = .ok (f, bin)) : ∃ meshes groups, collectMeshes E fuel o vpx = .ok (meshes, groups) ∧
    f.meshes.length = meshes.length ∧ ∀ (k : Nat) (m : NamedMesh), meshes[k]? = some m →
    ∃ x : Gltf.Mesh, f.meshes[k]? = some x ∧ x.name = m.name ∧
      f.vec3s bin x.position = some (m.vertices.map fun v =>
        (v.x *ᶠ o.units.scale, v.z *ᶠ o.units.scale, v.y *ᶠ o.units.scale)) ∧
      f.vec3s bin x.normal = some (m.vertices.map fun v => (nanZero v.nx, nanZero v.nz, nanZero v.ny)) ∧
      f.vec2s bin x.texcoord = some (m.vertices.map fun v => (v.tu, v.tv)) ∧
      ((∀ t ∈ m.faces, t.Below m.vertices.length) → m.vertices.length ≤ 2 ^ 32 →
        f.triangles bin x.indices = some (m.faces.map fun t => (t.i0.toNat, t.i2.toNat, t.i1.toNat))) := by
  obtain ⟨meshes, groups, hc, hb⟩ := gltfDocument_ok h
  obtain ⟨_, start, textured, gi, h1, h2, h3, hr⟩ := buildScene_ok hb
  obtain rfl : f = (sceneFile E o.units vpx meshes groups (collectMaterials vpx.gamedata) start textured gi).1 :=
    congrArg Prod.fst hr
  obtain rfl : bin = (sceneFile E o.units vpx meshes groups (collectMaterials vpx.gamedata) start textured gi).2 :=
    congrArg Prod.snd hr
  refine ⟨meshes, groups, hc, ?_, ?_⟩
  · have := (meshFold_lengths o.units (materialOf E.U (sceneMaterials E vpx meshes (collectMaterials vpx.gamedata) start
      textured) (sceneNames E (collectMaterials vpx.gamedata) start).1) meshes.zipIdx
      ⟨textured.1.bin, textured.1.views, [], [], [], ⟨[], [], []⟩⟩).2.2.1
    exact this.trans (by simp)
  · intro k m hk
    obtain ⟨g0, _⟩ := scene_mesh_get (E := E) (u := o.units) (vpx := vpx) (materials := collectMaterials vpx.gamedata)
      (start := start) (textured := textured) hk
    obtain ⟨d0, d1, d2, d3⟩ := scene_mesh_data (E := E) (u := o.units) (vpx := vpx) (groups := groups)
      (materials := collectMaterials vpx.gamedata) (start := start) (textured := textured) (gi := gi) hk
    refine ⟨_, g0, rfl, ?_, ?_, ?_, ?_⟩
    · unfold File.vec3s
      rw [d0]
      refine congrArg some (range_map_get _ _ _ fun i hi => ?_)
      have := floatAt_record (fun v : Vertex => le32 (toUnits o.units v.x) ++ le32 (toUnits o.units v.z) ++
        le32 (toUnits o.units v.y)) 3 (fun _ => rfl) m.vertices i hi
      obtain ⟨e0, e1, e2⟩ := f32At3 (toUnits o.units m.vertices[i].x) (toUnits o.units m.vertices[i].z)
        (toUnits o.units m.vertices[i].y)
      exact Prod.ext ((this 0 (by omega)).trans e0) (Prod.ext ((this 1 (by omega)).trans e1) ((this 2 (by omega)).trans e2))
    · unfold File.vec3s
      rw [d1]
      refine congrArg some (range_map_get _ _ _ fun i hi => ?_)
      have := floatAt_record (fun v : Vertex => le32 (nanZero v.nx) ++ le32 (nanZero v.nz) ++
        le32 (nanZero v.ny)) 3 (fun _ => rfl) m.vertices i hi
      obtain ⟨e0, e1, e2⟩ := f32At3 (nanZero m.vertices[i].nx) (nanZero m.vertices[i].nz) (nanZero m.vertices[i].ny)
      exact Prod.ext ((this 0 (by omega)).trans e0) (Prod.ext ((this 1 (by omega)).trans e1) ((this 2 (by omega)).trans e2))
    · unfold File.vec2s
      rw [d2]
      refine congrArg some (range_map_get _ _ _ fun i hi => ?_)
      have := floatAt_record (fun v : Vertex => le32 v.tu ++ le32 v.tv) 2 (fun _ => rfl) m.vertices i hi
      obtain ⟨e0, e1⟩ := f32At2 m.vertices[i].tu m.vertices[i].tv
      exact Prod.ext ((this 0 (by omega)).trans e0) ((this 1 (by omega)).trans e1)
    · intro hf hn
      unfold File.triangles
      rw [d3]
      refine congrArg some ?_
      dsimp only
      rw [Nat.mul_div_cancel _ (by omega)]
      refine range_map_get _ _ _ fun i hi => ?_
      have hbelow := hf _ (List.getElem_mem hi)
      have := indexAt_record (wide := m.vertices.length > 65535) m.faces i hi (by
        obtain ⟨a1, a2, b1, b2, c1, c2⟩ := hbelow
        unfold Face.Below
        by_cases hw : m.vertices.length > 65535
        · simp only [hw, decide_true, if_true]
          omega
        · simp only [hw, decide_false, Bool.false_eq_true, if_false]
          omega)
      exact Prod.ext this.1 (Prod.ext this.2.1 this.2.2)

/-- C76: node `k` shows mesh `k` at its place, and no other node shows it -/
theorem C76_mesh_nodes {E : GltfEnv} {fuel : Nat} {o : GltfOptions} {vpx : VPX} {f : File} {bin : Bytes}
    (h : gltfDocument E fuel o vpx = .ok (f, bin)) : ∃ meshes groups, collectMeshes E fuel o vpx = .ok (meshes, groups) ∧
    (∀ (k : Nat) (m : NamedMesh), meshes[k]? = some m → ∃ n : Gltf.Node, f.nodes[k]? = some n ∧ n.name = m.name ∧
      n.mesh = some k ∧ n.light = none ∧ n.camera = none ∧ n.children = none ∧ n.rotation = none ∧
      n.translation = m.translation.map vec3Nums ∧ n.scale = m.scale.map vec3Nums ∧
      (n.visible = some false ↔ m.visible = false) ∧ (n.visible = none ↔ m.visible = true)) ∧
    ∀ (i k : Nat) (n : Gltf.Node), f.nodes[i]? = some n → n.mesh = some k → i = k := by
  obtain ⟨meshes, groups, hc, hb⟩ := gltfDocument_ok h
  obtain ⟨_, start, textured, gi, h1, h2, h3, hr⟩ := buildScene_ok hb
  obtain rfl : f = (sceneFile E o.units vpx meshes groups (collectMaterials vpx.gamedata) start textured gi).1 :=
    congrArg Prod.fst hr
  generalize collectMaterials vpx.gamedata = materials
  have hnodes : (sceneMeshes E o.units vpx meshes materials start textured).nodes =
      meshes.zipIdx.map fun m => meshNode m.1 m.2 := by
    have := mesh_nodes (u := o.units) (mat := materialOf E.U (sceneMaterials E vpx meshes materials start textured)
      (sceneNames E materials start).1) meshes.zipIdx ⟨textured.1.bin, textured.1.views, [], [], [], ⟨[], [], []⟩⟩
    exact this.trans (by simp)
  refine ⟨meshes, groups, hc, ?_, ?_⟩
  · intro k m hk
    have hget : (sceneMeshes E o.units vpx meshes materials start textured).nodes[k]? = some (meshNode m k) := by
      rw [hnodes, List.getElem?_map, zipIdx_get hk]
      rfl
    obtain ⟨x, hx⟩ := arrange_keeps E o.units vpx groups ((vpx.gameitems.filterMap (isGiLight E.U)).zip (gi.map (·.2)))
      _ (sceneMeshes E o.units vpx meshes materials start textured).place k _ hget
    have hx' : (sceneFile E o.units vpx meshes groups materials start textured gi).1.nodes[k]? = _ :=
      getElem?_snoc_old hx
    refine ⟨_, hx', rfl, rfl, rfl, rfl, rfl, rfl, rfl, rfl, ?_, ?_⟩
    · cases hm : m.visible <;> simp [meshNode, hm]
    · cases hm : m.visible <;> simp [meshNode, hm]
  · intro i k n hn hm
    obtain ⟨l, h4, h5⟩ := (arrange_adds E o.units vpx groups
      ((vpx.gameitems.filterMap (isGiLight E.U)).zip (gi.map (·.2)))
      (sceneMeshes E o.units vpx meshes materials start textured).nodes
      (sceneMeshes E o.units vpx meshes materials start textured).place
      (fun l hl => ((gi_nodes h3).2 _ (List.of_mem_zip hl).2).2.1)).trans (.one _ (n := { emptyNode
        (if vpx.gamedata.name.isEmpty then "Table".toList else vpx.gamedata.name) with
        children := some (arrangeNodes E o.units vpx groups
          ((vpx.gameitems.filterMap (isGiLight E.U)).zip (gi.map (·.2)))
          (sceneMeshes E o.units vpx meshes materials start textured).nodes
          (sceneMeshes E o.units vpx meshes materials start textured).place).2
        extras := some (E.tableExtras vpx.gamedata) }) rfl)
    have h6 : ((sceneFile E o.units vpx meshes groups materials start textured gi).1.nodes.map (·.mesh))[i]? =
        some (some k) := by
      rw [List.getElem?_map, hn]
      simp [hm]
    have h7 : (sceneFile E o.units vpx meshes groups materials start textured gi).1.nodes.map (·.mesh) = _ := h4
    rw [h7, hnodes] at h6
    by_cases hi : i < meshes.length
    · rw [List.getElem?_append_left (by simpa using hi), List.getElem?_map, List.getElem?_map,
        zipIdx_get (List.getElem?_eq_getElem hi)] at h6
      simpa [meshNode] using h6
    · rw [List.getElem?_append_right (by simpa using hi)] at h6
      have := h5 _ (List.mem_of_getElem? h6)
      cases this

/-- C76: the corners of the triangles are vertices of their mesh, if those of the meshes in the table and of the
meshes that are not modelled are -/
theorem C76_indices {E : GltfEnv} {fuel : Nat} {o : GltfOptions} {vpx : VPX} {f : File} {bin : Bytes}
    (h : gltfDocument E fuel o vpx = .ok (f, bin)) (hS : Scene.GltfStockInside E.S)
    (hp : ∀ p m, .primitive p ∈ vpx.gameitems → p.use_3d_mesh = true → p.readMesh E.Z = .ok (some m) →
      Scene.FacesInside m.vertices.length m.faces) (x : Gltf.Mesh) (hx : x ∈ f.meshes) (ps : List (F32 × F32 × F32))
    (hps : f.vec3s bin x.position = some ps) (hn : ps.length ≤ 2 ^ 32) :
    ∃ ts, f.triangles bin x.indices = some ts ∧ ∀ t ∈ ts, t.1 < ps.length ∧ t.2.1 < ps.length ∧ t.2.2 < ps.length := by
  obtain ⟨meshes, groups, hc, hl, hd⟩ := C76_mesh_data h
  obtain ⟨k, hk, rfl⟩ := List.mem_iff_getElem.mp hx
  have hk' : k < meshes.length := hl ▸ hk
  obtain ⟨y, hy, _, d1, _, _, d4⟩ := hd k _ (List.getElem?_eq_getElem hk')
  rw [List.getElem?_eq_getElem hk] at hy
  cases hy
  have hi := collectMeshes_inside hS hp hc _ (List.getElem_mem hk')
  have hb : ∀ t ∈ meshes[k].faces, t.Below meshes[k].vertices.length := by
    intro t ht
    have hi := hi t ht
    have h0 := hi t.i0 (by simp)
    have h1 := hi t.i1 (by simp)
    have h2 := hi t.i2 (by simp)
    exact ⟨h0.1, h0.2, h1.1, h1.2, h2.1, h2.2⟩
  rw [d1] at hps
  obtain rfl := Option.some.inj hps
  refine ⟨_, d4 hb (by simpa using hn), ?_⟩
  intro t ht
  obtain ⟨u, hu, rfl⟩ := List.mem_map.mp ht
  obtain ⟨a1, a2, b1, b2, c1, c2⟩ := hb u hu
  simp only [List.length_map]
  omega

end

open Gltf (File) in
/-- C76: the bounds of a mesh are the smallest and largest coordinates of its positions, in IEEE arithmetic, if these are
finite -/
theorem C76_bounds (sin cos : F32 → F32) (pow : F32 → F32 → F32) {E : GltfEnv} {fuel : Nat} {o : GltfOptions} {vpx : VPX}
    {f : File} {bin : Bytes} (h : @gltfDocument (ieee sin cos pow) E fuel o vpx = .ok (f, bin)) (x : Gltf.Mesh)
    (hx : x ∈ f.meshes) (ps : List (F32 × F32 × F32)) (hps : f.vec3s bin x.position = some ps) (hn : ps ≠ [])
    (hf : ∀ p ∈ ps, p.1.isFinite = true ∧ p.2.1.isFinite = true ∧ p.2.2.isFinite = true) :
    ∃ a x0 y0 z0 x1 y1 z1, f.accessors[x.position]? = some a ∧ a.min = some [x0, y0, z0] ∧ a.max = some [x1, y1, z1] ∧
      Gltf.IsLeast x0 (ps.map fun p => p.1) ∧ Gltf.IsLeast y0 (ps.map fun p => p.2.1) ∧
      Gltf.IsLeast z0 (ps.map fun p => p.2.2) ∧ Gltf.IsGreatest x1 (ps.map fun p => p.1) ∧
      Gltf.IsGreatest y1 (ps.map fun p => p.2.1) ∧ Gltf.IsGreatest z1 (ps.map fun p => p.2.2) := by
  letI : Arith := ieee sin cos pow
  obtain ⟨meshes, groups, hc, hl, hd⟩ := C76_mesh_data h
  obtain ⟨k, hk, rfl⟩ := List.mem_iff_getElem.mp hx
  have hk' : k < meshes.length := hl ▸ hk
  have hm : meshes[k]? = some meshes[k] := List.getElem?_eq_getElem hk'
  obtain ⟨y, hy, _, d1, _⟩ := hd k _ hm
  rw [List.getElem?_eq_getElem hk] at hy
  cases hy
  rw [d1] at hps
  obtain ⟨meshes', groups', hc', hb⟩ := gltfDocument_ok h
  rw [hc] at hc'
  cases hc'
  obtain ⟨_, start, textured, gi, h1, h2, h3, hr⟩ := buildScene_ok hb
  obtain rfl : f = (sceneFile E o.units vpx meshes groups (collectMaterials vpx.gamedata) start textured gi).1 :=
    congrArg Prod.fst hr
  obtain rfl : bin = (sceneFile E o.units vpx meshes groups (collectMaterials vpx.gamedata) start textured gi).2 :=
    congrArg Prod.snd hr
  obtain ⟨g0, _⟩ := scene_mesh_get (E := E) (u := o.units) (vpx := vpx) (materials := collectMaterials vpx.gamedata)
    (start := start) (textured := textured) hm
  have g1 : (sceneFile E o.units vpx meshes groups (collectMaterials vpx.gamedata) start textured gi).1.meshes[k]? = _ := g0
  rw [List.getElem?_eq_getElem hk] at g1
  have g2 := congrArg Gltf.Mesh.position (Option.some.inj g1)
  dsimp only at g2
  obtain ⟨d0, _⟩ := scene_mesh_data (E := E) (u := o.units) (vpx := vpx) (groups := groups)
    (materials := collectMaterials vpx.gamedata) (start := start) (textured := textured) (gi := gi) hm
  rw [g2]
  obtain rfl := Option.some.inj hps
  unfold File.data at d0
  obtain ⟨a, ha, d0⟩ := Option.bind_eq_some_iff.mp d0
  obtain ⟨v, hv, d0⟩ := Option.bind_eq_some_iff.mp d0
  have d0 := congrArg Prod.fst (Option.some.inj d0)
  have hb := sceneBounds_parts o.units meshes[k].vertices
  have hfin : ∀ (g : F32 × F32 × F32 → F32), (∀ p, p.1.isFinite = true ∧ p.2.1.isFinite = true ∧
      p.2.2.isFinite = true → (g p).isFinite = true) →
      ∀ z ∈ ((meshes[k].vertices.map fun v => (toUnits o.units v.x, toUnits o.units v.z, toUnits o.units v.y)).map g),
      z.isFinite = true := by
    intro g hg z hz
    obtain ⟨p, hp, rfl⟩ := List.mem_map.mp hz
    exact hg p (hf p hp)
  have hne : ∀ (g : F32 × F32 × F32 → F32),
      ((meshes[k].vertices.map fun v => (toUnits o.units v.x, toUnits o.units v.z, toUnits o.units v.y)).map g) ≠ [] := by
    intro g hg
    exact hn (List.map_eq_nil_iff.mp hg)
  exact ⟨a, _, _, _, _, _, _, ha, (congrArg Gltf.Accessor.min d0).trans (congrArg (fun b => some (vec3Nums b.1)) hb),
    (congrArg Gltf.Accessor.max d0).trans (congrArg (fun b => some (vec3Nums b.2)) hb),
    least_fold sin cos pow (hne fun p => p.1) (hfin _ fun p hp => hp.1),
    least_fold sin cos pow (hne fun p => p.2.1) (hfin _ fun p hp => hp.2.1),
    least_fold sin cos pow (hne fun p => p.2.2) (hfin _ fun p hp => hp.2.2),
    greatest_fold sin cos pow (hne fun p => p.1) (hfin _ fun p hp => hp.1),
    greatest_fold sin cos pow (hne fun p => p.2.1) (hfin _ fun p hp => hp.2.1),
    greatest_fold sin cos pow (hne fun p => p.2.2) (hfin _ fun p hp => hp.2.2)⟩

/-! ### Examples -/

section
attribute [local instance] ieeeExact

def gltfOut : Res (Gltf.File × Bytes) := gltfDocument gltfSample 10 .default gltfTable

/-- the scene of the example: seven meshes, two lights of the table and one of the general illumination, which is in
one group with the parts of the item, in a layer, and a camera -/
example : (gltfOut.toOption.map fun r => r.1.nodes.map fun n => (n.name, [n.mesh, n.light, n.camera], n.children)) = some
    [("P".toList, [some 0, none, none], none), ("SPlate".toList, [some 1, none, none], none),
     ("Q".toList, [some 2, none, none], none), ("GI_1_bulb".toList, [some 3, none, none], none),
     ("GI_1_socket".toList, [some 4, none, none], none), ("Ball".toList, [some 5, none, none], none),
     ("playfield_mesh".toList, [some 6, none, none], none), ("TableLight0".toList, [none, some 0, none], none),
     ("TableLight1".toList, [none, some 1, none], none), ("GI_1_light".toList, [none, some 2, none], none),
     ("GI_1".toList, [none, none, none], some [3, 4, 9]), ("Layer_3".toList, [none, none, none], some [10]),
     ("Desktop".toList, [none, none, some 0], none),
     ("Table".toList, [none, none, none], some [6, 7, 8, 0, 1, 2, 5, 11, 12])] := by decide +kernel

/-- the data of its ball, in metres -/
example : (gltfOut.toOption.bind fun r => r.1.meshes[5]?.bind fun m => r.1.vec3s r.2 m.position) = some
    [(0, 0, 0), (973962754, 0, 0), (0, 982351362, 973962754)] ∧
    (gltfOut.toOption.bind fun r => r.1.meshes[5]?.bind fun m => r.1.triangles r.2 m.indices) = some [(0, 2, 1)] := by
  decide +kernel

/-- the conditions of C75 and C76 are met -/
example : (∃ f bin, gltfDocument gltfSample 10 .default gltfTable = .ok (f, bin)) ∧ Scene.GltfStockInside gltfSample.S ∧
    ∀ p m, .primitive p ∈ gltfTable.gameitems → p.use_3d_mesh = true → p.readMesh gltfSample.Z = .ok (some m) →
      Scene.FacesInside m.vertices.length m.faces := by
  refine ⟨?_, gltfStock_inside, ?_⟩
  · have : gltfOut.toOption.isSome = true := by decide +kernel
    cases h : gltfOut with
    | error e => rw [h] at this; cases this
    | ok r => exact ⟨r.1, r.2, h⟩
  · intro p m hp
    have hp : .primitive p ∈ sceneTable.gameitems := by
      simp only [gltfTable, List.mem_append, List.mem_cons, List.not_mem_nil, or_false, reduceCtorEq] at hp
      exact hp
    exact sceneTable_own p m hp

/-- the bounds of C76 are met -/
example : (gltfOut.toOption.bind fun r => r.1.meshes[5]?.bind fun m => (r.1.vec3s r.2 m.position).map fun ps =>
    !ps.isEmpty && ps.all fun p => p.1.isFinite && p.2.1.isFinite && p.2.2.isFinite) = some true ∧
    (gltfOut.toOption.bind fun r => r.1.meshes[5]?.bind fun m => r.1.accessors[m.position]?.map fun a =>
      (a.min, a.max)) = some (some [some 0, some 0, some 0], some [some 973962754, some 982351362, some 973962754]) := by
  decide +kernel

/-! ### What does not hold -/

/-- After a mesh with an odd number of triangles the floats of the next mesh are not at a multiple of four, which glTF
requires. -/
theorem C76_alignment_counterexample : ¬ ∀ (vpx : VPX) (f : Gltf.File) (bin : Bytes),
    gltfDocument gltfSample 10 .default vpx = .ok (f, bin) → f.Aligned := by
  intro h
  have hbad : (gltfOut.toOption.any fun r => r.1.accessors.any fun a => r.1.views[a.view]?.any fun v =>
      a.component == 5126 && v.offset % 4 != 0) = true := by decide +kernel
  cases ho : gltfOut with
  | error e => rw [ho] at hbad; cases hbad
  | ok r =>
    rw [ho] at hbad
    have hal := h gltfTable r.1 r.2 ho
    obtain ⟨a, ha, hbad⟩ := List.any_eq_true.mp hbad
    obtain ⟨v, hv, hbad⟩ := (Option.any_eq_true _ _).mp hbad
    simp only [Bool.and_eq_true, beq_iff_eq, bne_iff_ne] at hbad
    exact hbad.2 (hal a ha v hv 4 (by rw [hbad.1]; rfl))

/-- a primitive whose mesh has no vertices -/
def emptyPrimitive : Primitive :=
  { (Primitive.default.setMesh plainZlib 0 [] []) with name := "empty".toList, use_3d_mesh := true }

/-- A mesh without vertices is not left out, and has no bounds: its `min` and `max` are `null`s, which is not valid
glTF. -/
theorem C76_empty_mesh_counterexample :
    ((gltfDocument gltfSample 10 .default { gltfTable with gameitems := [.primitive emptyPrimitive] }).toOption.bind
      fun r => r.1.meshes[0]?.bind fun m => r.1.accessors[m.position]?.map fun a => (m.name, [a.min, a.max])) =
    some ("empty".toList, [some [none, none, none], some [none, none, none]]) := by decide +kernel

end
end Vpin
