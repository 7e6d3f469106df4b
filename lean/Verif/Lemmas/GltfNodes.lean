import Verif.Lemmas.GltfTree
/-! Helper lemmas: the nodes that `arrangeNodes` adds to those of the meshes. -/
namespace Vpin
open Gltf (Node)

/-- the nodes stay where they are and change at most their extras -/
def NodesKeep (a b : List Node) : Prop := ∀ (i : Nat) (n : Node), a[i]? = some n → ∃ x, b[i]? = some { n with extras := x }

theorem NodesKeep.refl (a : List Node) : NodesKeep a a := fun _ n h => ⟨n.extras, h⟩

theorem NodesKeep.trans {a b c : List Node} (h : NodesKeep a b) (h' : NodesKeep b c) : NodesKeep a c := by
  intro i n hn
  obtain ⟨x, hx⟩ := h i n hn
  obtain ⟨y, hy⟩ := h' i _ hx
  exact ⟨y, hy⟩

theorem NodesKeep.append (a b : List Node) : NodesKeep a (a ++ b) := by
  intro i n hn
  refine ⟨n.extras, ?_⟩
  rw [List.getElem?_append_left (List.getElem?_eq_some_iff.mp hn).1]
  exact hn

theorem NodesKeep.set (a : List Node) (i : Nat) (j : J) : NodesKeep a (setExtras a i j) := by
  intro k n hn
  unfold setExtras
  rw [List.getElem?_modify]
  by_cases h : i = k
  · exact ⟨some j, by simp [h, hn]⟩
  · exact ⟨n.extras, by simp [h, hn]⟩

theorem NodesKeep.group (s : List Node × Placement) (g : ItemGroup) : NodesKeep s.1 (addGroup s g).1 := by
  unfold addGroup
  cases mapGet s.2.items g.name with
  | none => exact .refl _
  | some cs =>
    match cs with
    | [] => exact .refl _
    | [c] => exact .set _ _ _
    | c :: d :: cs => exact .append _ _

theorem NodesKeep.fold {α β : Type} (f : List Node × β → α → List Node × β) (h : ∀ s a, NodesKeep s.1 (f s a).1) :
    ∀ (l : List α) (s : List Node × β), NodesKeep s.1 (l.foldl f s).1
  | [], _ => .refl _
  | a :: l, s => (h s a).trans (NodesKeep.fold f h l (f s a))

theorem mem_setExtras {P : Node → Prop} {nodes : List Node} {i : Nat} {j : J} (h : ∀ n ∈ nodes, P n)
    (hj : ∀ n, P n → P { n with extras := some j }) : ∀ n ∈ setExtras nodes i j, P n := by
  intro n hn
  obtain ⟨k, hk, rfl⟩ := List.mem_iff_getElem.mp hn
  have hk' : k < nodes.length := by simpa [setExtras] using hk
  simp only [setExtras, List.getElem_modify]
  split
  · exact hj _ (h _ (List.getElem_mem _))
  · exact h _ (List.getElem_mem _)

theorem mem_snoc {P : Node → Prop} {nodes : List Node} {a : Node} (h : ∀ n ∈ nodes, P n) (ha : P a) :
    ∀ n ∈ nodes ++ [a], P n := by
  intro n hn
  rcases List.mem_append.mp hn with hn | hn
  · exact h n hn
  · exact List.mem_singleton.mp hn ▸ ha

theorem fold_all {α β : Type} (P : Node → Prop) (f : List Node × β → α → List Node × β) :
    ∀ (l : List α) (s : List Node × β), (∀ n ∈ s.1, P n) →
      (∀ (s : List Node × β), ∀ a ∈ l, (∀ n ∈ s.1, P n) → ∀ n ∈ (f s a).1, P n) → ∀ n ∈ (l.foldl f s).1, P n
  | [], _, h, _ => h
  | a :: l, s, h, hf => fold_all P f l (f s a) (hf s a (by simp) h) fun s b hb => hf s b (by simp [hb])

theorem mem_addGroup {P : Node → Prop} {s : List Node × Placement} {g : ItemGroup} (h : ∀ n ∈ s.1, P n)
    (hj : ∀ n, P n → P { n with extras := some g.extras })
    (hn : ∀ cs, P { emptyNode g.name with children := some cs, extras := some g.extras }) :
    ∀ n ∈ (addGroup s g).1, P n := by
  unfold addGroup
  cases mapGet s.2.items g.name with
  | none => exact h
  | some cs =>
    match cs with
    | [] => exact h
    | [c] => exact mem_setExtras h hj
    | c :: d :: cs => exact mem_snoc h (hn _)

theorem Hung.clear {nodes : List Node} {p : Placement} (h : Hung nodes p) (hi : p.items = []) :
    Hung nodes ⟨[], p.layers, p.roots⟩ := by
  obtain ⟨a, b, c⟩ := p
  dsimp only at hi
  subst hi
  exact h

section
variable [Arith]

/-- what holds of all nodes -/
theorem arrange_all {P : Node → Prop} {E : GltfEnv} {u : ExportUnits} {vpx : VPX} {groups : List ItemGroup}
    {gi : List (Light × Node)} {nodes : List Node} {place : Placement} (h : ∀ n ∈ nodes, P n)
    (hlight : ∀ name part, ∀ i < 2, P (tableLightNode u vpx.gamedata name part i))
    (hgi : ∀ l ∈ gi, P l.2)
    (hj : ∀ g ∈ groups, ∀ n, P n → P { n with extras := some g.extras })
    (hg : ∀ g ∈ groups, ∀ cs, P { emptyNode g.name with children := some cs, extras := some g.extras })
    (hl : ∀ name cs, P { emptyNode name with children := some cs })
    (hc : ∀ c, ∀ i < (E.cameras vpx).length, P (GltfCamera.node c i)) :
    ∀ n ∈ (arrangeNodes E u vpx groups gi nodes place).1, P n := by
  unfold arrangeNodes
  refine fold_all P _ _ _ ?_ ?_
  · refine fold_all P _ _ _ ?_ ?_
    · refine fold_all P _ _ _ ?_ ?_
      · refine fold_all P _ _ _ ?_ ?_
        · intro n hn
          rcases List.mem_append.mp hn with hn | hn
          · exact h n hn
          · simp only [List.mem_cons, List.not_mem_nil, or_false] at hn
            rcases hn with rfl | rfl
            · exact hlight _ _ _ (by omega)
            · exact hlight _ _ _ (by omega)
        · exact fun s l hl h => mem_snoc h (hgi l hl)
      · exact fun s g hm h => mem_addGroup h (hj g hm) (hg g hm)
    · exact fun s l _ h => mem_snoc h (hl _ _)
  · intro s c hm h
    refine mem_snoc h (hc _ _ ?_)
    have := List.mem_zipIdx' (x := c.1) (i := c.2) hm
    exact this.1

/-- the nodes of the meshes stay where they are -/
theorem arrange_keeps (E : GltfEnv) (u : ExportUnits) (vpx : VPX) (groups : List ItemGroup) (gi : List (Light × Node))
    (nodes : List Node) (place : Placement) : NodesKeep nodes (arrangeNodes E u vpx groups gi nodes place).1 := by
  unfold arrangeNodes
  refine NodesKeep.trans ?_ (NodesKeep.fold _ ?_ _ _)
  · refine NodesKeep.trans ?_ (NodesKeep.fold _ ?_ _ _)
    · refine NodesKeep.trans ?_ (NodesKeep.fold _ ?_ _ _)
      · refine NodesKeep.trans ?_ (NodesKeep.fold _ ?_ _ _)
        · exact .append _ _
        · exact fun s a => .append _ _
      · exact NodesKeep.group
    · exact fun s a => .append _ _
  · exact fun s a => .append _ _

omit [Arith] in
theorem hung_lights {gi : List (Light × Node)} : ∀ {s : List Node × Placement}, Hung s.1 s.2 →
    (∀ l ∈ gi, l.2.children = none) →
    let t := gi.foldl (fun s l => (s.1 ++ [l.2], { s.2 with items := pushTo s.2.items l.1.name s.1.length })) s
    Hung t.1 t.2 ∧ ∀ e ∈ t.2.items, e.1 ∈ s.2.items.map (·.1) ∨ ∃ l ∈ gi, l.1.name = e.1 := by
  induction gi with
  | nil => exact fun h _ => ⟨h, fun e he => .inl (List.mem_map_of_mem he)⟩
  | cons l gi ih =>
    intro s h hc
    have h1 : Hung (s.1 ++ [l.2]) { s.2 with items := pushTo s.2.items l.1.name s.1.length } :=
      h.leaf (hc l (by simp)) (all_item _ _ _) (h.items.pushTo _ _) h.layers
    obtain ⟨h2, h3⟩ := ih (s := (s.1 ++ [l.2], { s.2 with items := pushTo s.2.items l.1.name s.1.length })) h1
      fun l hl => hc l (by simp [hl])
    refine ⟨h2, fun e he => ?_⟩
    rcases h3 e he with h' | ⟨x, hx, hn⟩
    · rcases (keys_pushTo _ _ _ _).mp h' with h' | h'
      · exact .inr ⟨l, by simp, h'.symm⟩
      · exact .inl h'
    · exact .inr ⟨x, by simp [hx], hn⟩

omit [Arith] in
theorem hung_cameras {cs : List (GltfCamera × Nat)} : ∀ {s : List Node × List Nat}, Hung s.1 ⟨[], [], s.2⟩ →
    let t := cs.foldl (fun s c => (s.1 ++ [c.1.node c.2], s.2 ++ [s.1.length])) s
    Hung t.1 ⟨[], [], t.2⟩ := by
  induction cs with
  | nil => exact fun h => h
  | cons c cs ih =>
    intro s h
    exact ih (s := (s.1 ++ [c.1.node c.2], s.2 ++ [s.1.length]))
      (h.leaf rfl (all_hang ⟨[], [], s.2⟩ none s.1.length) GoodMap.nil GoodMap.nil)

/-- every node but the children of the root has one parent -/
theorem arrange_hung {E : GltfEnv} {u : ExportUnits} {vpx : VPX} {groups : List ItemGroup}
    {gi : List (Light × Node)} {nodes : List Node} {place : Placement} (h : Hung nodes place)
    (hgi : ∀ l ∈ gi, l.2.children = none) (hi : ∀ e ∈ place.items, e.1 ∈ groups.map (·.name))
    (hl : ∀ l ∈ gi, l.1.name ∈ groups.map (·.name)) :
    Hung (arrangeNodes E u vpx groups gi nodes place).1 ⟨[], [], (arrangeNodes E u vpx groups gi nodes place).2⟩ := by
  let g := vpx.gamedata
  let a := tableLightNode u g "TableLight0" 0x3eaaaaab 0
  let b := tableLightNode u g "TableLight1" 0x3f2aaaab 1
  have h1 : Hung (nodes ++ [a]) { place with roots := place.roots ++ [nodes.length] } :=
    h.leaf rfl (all_hang place none nodes.length) h.items h.layers
  have h2 : Hung (nodes ++ [a] ++ [b]) { place with roots := place.roots ++ [nodes.length] ++ [nodes.length + 1] } := by
    refine h1.leaf rfl ?_ h.items h.layers
    have := all_hang { place with roots := place.roots ++ [nodes.length] } none (nodes.length + 1)
    rw [show (nodes ++ [a]).length = nodes.length + 1 from by simp]
    exact this
  rw [List.append_assoc, List.append_assoc] at h2
  obtain ⟨h3, hk⟩ := hung_lights (s := (nodes ++ ([a] ++ [b]),
    { place with roots := place.roots ++ ([nodes.length] ++ [nodes.length + 1]) })) h2 hgi
  unfold arrangeNodes
  refine hung_cameras ?_
  refine Hung.layerFold ?_
  have h4 := h3.groups (gs := groups)
  have hempty : (groups.foldl addGroup (gi.foldl (fun s l => (s.1 ++ [l.2],
      { s.2 with items := pushTo s.2.items l.1.name s.1.length })) (nodes ++ ([a] ++ [b]),
      { place with roots := place.roots ++ ([nodes.length] ++ [nodes.length + 1]) }))).2.items = [] := by
    apply List.eq_nil_iff_forall_not_mem.mpr
    intro e he
    obtain ⟨h5, h6⟩ := groups_items _ _ e he
    apply h6
    rcases hk e h5 with h7 | ⟨l, hl', hn⟩
    · obtain ⟨x, hx, hxe⟩ := List.mem_map.mp h7
      exact hxe ▸ hi x hx
    · exact hn ▸ hl l hl'
  refine Hung.layerPerm (ls := _) ?_ (E.layerOrder_perm _)
  exact h4.clear hempty

end

theorem allChildren_range (l : List Node) :
    (List.range l.length).flatMap (fun i => ((l[i]?).bind (·.children)).getD []) = allChildren l := by
  induction l with
  | nil => rfl
  | cons a l ih =>
    rw [List.length_cons, List.range_succ_eq_map, List.flatMap_cons, List.flatMap_map]
    simp only [List.getElem?_cons_zero, Option.bind_some, List.getElem?_cons_succ]
    rw [ih]
    rfl

/-- The nodes with the root are a tree. -/
theorem Hung.tree {nodes : List Node} {roots : List Nat} (h : Hung nodes ⟨[], [], roots⟩) {root : Node}
    (hr : root.children = some roots) (f : Gltf.File) (hf : f.nodes = nodes ++ [root]) :
    ((nodes.length :: (List.range f.nodes.length).flatMap f.childrenOf).Perm (List.range f.nodes.length)) ∧
    ∀ i < f.nodes.length, f.Under nodes.length i := by
  have hall : (roots ++ allChildren nodes).Perm (List.range nodes.length) := by
    have := h.once
    simpa [Placement.all, listed] using this
  have hc : (List.range f.nodes.length).flatMap f.childrenOf = allChildren nodes ++ roots := by
    rw [show allChildren nodes ++ roots = allChildren f.nodes from by
      rw [hf, allChildren_append]
      simp [allChildren, hr]]
    exact allChildren_range f.nodes
  have hlen : f.nodes.length = nodes.length + 1 := by simp [hf]
  refine ⟨?_, ?_⟩
  · rw [hc, hlen, range_snoc]
    refine (List.perm_append_singleton _ _).symm.trans ?_
    exact (List.perm_append_comm.trans hall).append_right _
  · have : ∀ d i, i + d = nodes.length → f.Under nodes.length i := by
      intro d
      induction d using Nat.strongRecOn with
      | ind d ih =>
        intro i hi
        by_cases hd : d = 0
        · rw [show i = nodes.length by omega]
          exact .here
        have hlt : i < nodes.length := by omega
        have hm := hall.mem_iff.mpr (List.mem_range.mpr hlt)
        rcases List.mem_append.mp hm with hm | hm
        · refine .child nodes.length i .here ?_
          simp [Gltf.File.childrenOf, hf, hr, hm]
        · obtain ⟨n, hn, hin⟩ := List.mem_flatMap.mp hm
          obtain ⟨k, hk, rfl⟩ := List.mem_iff_getElem.mp hn
          have hki := h.before k hk i hin
          refine .child k i (ih (nodes.length - k) (by omega) k (by omega)) ?_
          simpa [Gltf.File.childrenOf, hf, List.getElem?_append_left hk, hk] using hin
    intro i hi
    exact this (nodes.length - i) i (by omega)

/-! ### Only the nodes of the meshes show meshes -/

/-- the nodes that are added show no mesh -/
def AddsNone (a b : List Node) : Prop := ∃ l : List (Option Nat), b.map (·.mesh) = a.map (·.mesh) ++ l ∧ ∀ x ∈ l, x = none

theorem AddsNone.refl (a : List Node) : AddsNone a a := ⟨[], by simp, by simp⟩

theorem AddsNone.trans {a b c : List Node} (h : AddsNone a b) (h' : AddsNone b c) : AddsNone a c := by
  obtain ⟨l, h1, h2⟩ := h
  obtain ⟨l', h3, h4⟩ := h'
  refine ⟨l ++ l', by rw [h3, h1, List.append_assoc], ?_⟩
  intro x hx
  rcases List.mem_append.mp hx with hx | hx
  · exact h2 x hx
  · exact h4 x hx

theorem AddsNone.append (a b : List Node) (h : ∀ n ∈ b, n.mesh = none) : AddsNone a (a ++ b) :=
  ⟨b.map (·.mesh), by simp, by
    intro x hx
    obtain ⟨n, hn, rfl⟩ := List.mem_map.mp hx
    exact h n hn⟩

theorem AddsNone.one (a : List Node) {n : Node} (h : n.mesh = none) : AddsNone a (a ++ [n]) :=
  .append a [n] fun m hm => by rw [List.mem_singleton.mp hm, h]

theorem AddsNone.set (a : List Node) (i : Nat) (j : J) : AddsNone a (setExtras a i j) := by
  refine ⟨[], ?_, by simp⟩
  rw [List.append_nil]
  apply List.ext_getElem
  · simp [setExtras]
  · intro k h1 h2
    simp only [List.getElem_map, setExtras, List.getElem_modify]
    split <;> rfl

theorem AddsNone.group (s : List Node × Placement) (g : ItemGroup) : AddsNone s.1 (addGroup s g).1 := by
  unfold addGroup
  cases mapGet s.2.items g.name with
  | none => exact .refl _
  | some cs =>
    match cs with
    | [] => exact .refl _
    | [c] => exact .set _ _ _
    | c :: d :: cs => exact .one _ rfl

theorem AddsNone.fold {α β : Type} (f : List Node × β → α → List Node × β) :
    ∀ (l : List α) (_ : ∀ s, ∀ a ∈ l, AddsNone s.1 (f s a).1) (s : List Node × β), AddsNone s.1 (l.foldl f s).1
  | [], _, _ => .refl _
  | a :: l, h, s => (h s a (by simp)).trans (AddsNone.fold f l (fun s b hb => h s b (by simp [hb])) (f s a))

theorem arrange_adds [Arith] (E : GltfEnv) (u : ExportUnits) (vpx : VPX) (groups : List ItemGroup)
    (gi : List (Light × Node)) (nodes : List Node) (place : Placement) (hgi : ∀ l ∈ gi, l.2.mesh = none) :
    AddsNone nodes (arrangeNodes E u vpx groups gi nodes place).1 := by
  unfold arrangeNodes
  refine AddsNone.trans ?_ (AddsNone.fold _ _ ?_ _)
  · refine AddsNone.trans ?_ (AddsNone.fold _ _ ?_ _)
    · refine AddsNone.trans ?_ (AddsNone.fold _ _ ?_ _)
      · refine AddsNone.trans ?_ (AddsNone.fold _ _ ?_ _)
        · refine .append _ _ ?_
          intro n hn
          simp only [List.mem_cons, List.not_mem_nil, or_false] at hn
          rcases hn with rfl | rfl <;> rfl
        · exact fun s a ha => .one _ (hgi a ha)
      · exact fun s g _ => .group s g
    · exact fun s a _ => .one _ rfl
  · exact fun s a _ => .one _ rfl

end Vpin
