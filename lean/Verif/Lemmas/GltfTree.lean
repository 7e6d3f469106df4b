import Verif.Model.GltfDoc
/-! Helper lemmas: where the nodes of the glTF scene hang. -/
namespace Vpin
open Gltf

/-- the children of all nodes -/
def allChildren (nodes : List Node) : List Nat := nodes.flatMap fun n => n.children.getD []

/-- the nodes in the lists of a map -/
def listed (m : List (Str × List Nat)) : List Nat := m.flatMap (·.2)

/-- the nodes that hang somewhere -/
def Placement.all (p : Placement) : List Nat := p.roots ++ (listed p.items ++ listed p.layers)

theorem listed_pushTo (m : List (Str × List Nat)) (k : Str) (n : Nat) : (listed (pushTo m k n)).Perm (listed m ++ [n]) := by
  induction m with
  | nil => exact .refl _
  | cons e rest ih =>
    unfold pushTo
    by_cases h : e.1 = k
    · rw [if_pos h]
      show (e.2 ++ [n] ++ listed rest).Perm (e.2 ++ listed rest ++ [n])
      rw [List.append_assoc, List.append_assoc]
      exact List.Perm.append_left _ List.perm_append_comm
    · rw [if_neg h]
      show (e.2 ++ listed (pushTo rest k n)).Perm (e.2 ++ listed rest ++ [n])
      rw [List.append_assoc]
      exact List.Perm.append_left _ ih

/-- the lists of a map are not empty and no key is there twice -/
structure GoodMap (m : List (Str × List Nat)) : Prop where
  keys : (m.map (·.1)).Nodup
  nonempty : ∀ e ∈ m, e.2 ≠ []

theorem keys_pushTo (m : List (Str × List Nat)) (k : Str) (n : Nat) (x : Str) :
    x ∈ (pushTo m k n).map (·.1) ↔ x = k ∨ x ∈ m.map (·.1) := by
  induction m with
  | nil => simp [pushTo]
  | cons e rest ih =>
    unfold pushTo
    by_cases h : e.1 = k
    · rw [if_pos h]
      simp [h]
    · rw [if_neg h, List.map_cons, List.mem_cons, ih, List.map_cons, List.mem_cons]
      constructor
      · rintro (h | h | h) <;> simp [h]
      · rintro (h | h | h) <;> simp [h]

theorem GoodMap.nil : GoodMap [] := ⟨List.nodup_nil, by simp⟩

theorem GoodMap.pushTo {m : List (Str × List Nat)} (h : GoodMap m) (k : Str) (n : Nat) : GoodMap (pushTo m k n) := by
  induction m with
  | nil => exact ⟨by simp [Vpin.pushTo], by simp [Vpin.pushTo]⟩
  | cons e rest ih =>
    have hk := h.keys
    rw [List.map_cons, List.nodup_cons] at hk
    have ih := ih ⟨hk.2, fun x hx => h.nonempty x (by simp [hx])⟩
    unfold Vpin.pushTo
    by_cases he : e.1 = k
    · rw [if_pos he]
      refine ⟨?_, ?_⟩
      · rw [List.map_cons, List.nodup_cons]
        exact ⟨by simpa [← he] using hk.1, hk.2⟩
      · intro x hx
        rcases List.mem_cons.mp hx with hx | hx
        · subst hx
          simp
        · exact h.nonempty x (by simp [hx])
    · rw [if_neg he]
      refine ⟨?_, ?_⟩
      · rw [List.map_cons, List.nodup_cons]
        refine ⟨?_, ih.keys⟩
        rw [keys_pushTo]
        rintro (h' | h')
        · exact he h'
        · exact hk.1 h'
      · intro x hx
        rcases List.mem_cons.mp hx with hx | hx
        · exact h.nonempty x (by simp [hx])
        · exact ih.nonempty x hx

theorem GoodMap.filter {m : List (Str × List Nat)} (h : GoodMap m) (k : Str) : GoodMap (m.filter fun e => e.1 != k) :=
  ⟨h.keys.sublist (List.Sublist.map _ List.filter_sublist), fun e he => h.nonempty e ((List.mem_filter.mp he).1)⟩

theorem filter_absent {m : List (Str × List Nat)} {k : Str} (h : k ∉ m.map (·.1)) : m.filter (fun e => e.1 != k) = m := by
  rw [List.filter_eq_self]
  intro e he
  simp only [bne_iff_ne, ne_eq]
  intro hk
  exact h (hk ▸ List.mem_map_of_mem (f := (·.1)) he)

theorem mapGet_listed {m : List (Str × List Nat)} {k : Str} {v : List Nat} (hm : (m.map (·.1)).Nodup)
    (h : mapGet m k = some v) : (listed m).Perm (v ++ listed (m.filter fun e => e.1 != k)) := by
  induction m with
  | nil => cases h
  | cons e rest ih =>
    rw [List.map_cons, List.nodup_cons] at hm
    by_cases he : e.1 = k
    · have hv : e.2 = v := by
        simp only [mapGet, List.find?_cons, he, beq_self_eq_true, Option.map_some, Option.some.injEq] at h
        exact h
      have hf : (e :: rest).filter (fun e => e.1 != k) = rest := by
        rw [List.filter_cons_of_neg (by simp [he])]
        exact filter_absent (he ▸ hm.1)
      rw [hf, ← hv]
      exact .refl _
    · have hb : (e.1 == k) = false := by simpa using he
      have h' : mapGet rest k = some v := by
        simp only [mapGet, List.find?_cons, hb] at h
        exact h
      rw [List.filter_cons_of_pos (by simpa using he)]
      show (e.2 ++ listed rest).Perm (v ++ (e.2 ++ listed _))
      refine ((ih hm.2 h').append_left e.2).trans ?_
      rw [← List.append_assoc, ← List.append_assoc]
      exact List.Perm.append_right _ List.perm_append_comm

theorem mapGet_mem {α : Type} {m : List (Str × α)} {k : Str} {v : α} (h : mapGet m k = some v) : (k, v) ∈ m := by
  unfold mapGet at h
  cases hf : m.find? (fun e => e.1 == k) with
  | none => rw [hf] at h; cases h
  | some e =>
    rw [hf] at h
    have he := List.find?_some hf
    have hm := List.mem_of_find?_eq_some hf
    simp only [Option.map_some, Option.some.injEq] at h
    have : e.1 = k := by simpa using he
    rw [← this, ← h]
    exact hm

theorem mapGet_none {α : Type} {m : List (Str × α)} {k : Str} (h : mapGet m k = none) : k ∉ m.map (·.1) := by
  unfold mapGet at h
  rw [Option.map_eq_none_iff, List.find?_eq_none] at h
  intro hk
  obtain ⟨e, he, rfl⟩ := List.mem_map.mp hk
  exact h e he (by simp)

/-- nodes and where they hang: every node hangs in one place, children come before their parents and parents do not move
their children -/
structure Hung (nodes : List Node) (p : Placement) : Prop where
  once : (p.all ++ allChildren nodes).Perm (List.range nodes.length)
  before : ∀ i (h : i < nodes.length), ∀ c ∈ (nodes[i].children.getD []), c < i
  filled : ∀ n ∈ nodes, n.children ≠ some []
  items : GoodMap p.items
  layers : GoodMap p.layers

theorem allChildren_append (a b : List Node) : allChildren (a ++ b) = allChildren a ++ allChildren b := by
  simp [allChildren]

theorem allChildren_leaf {n : Node} (h : n.children = none) : allChildren [n] = [] := by simp [allChildren, h]

theorem getElem_snoc {α : Type} {l : List α} {a : α} {i : Nat} (h : i < (l ++ [a]).length) :
    (l ++ [a])[i] = a ∧ i = l.length ∨ ∃ h' : i < l.length, (l ++ [a])[i] = l[i] := by
  by_cases hi : i < l.length
  · exact .inr ⟨hi, by rw [List.getElem_append_left hi]⟩
  · have : i = l.length := by simp at h; omega
    subst this
    exact .inl ⟨by simp, rfl⟩

theorem range_snoc (n : Nat) : List.range (n + 1) = List.range n ++ [n] := List.range_succ

/-- all nodes, when one more hangs -/
theorem all_hang (p : Placement) (l : Option Str) (n : Nat) : (p.hang l n).all.Perm (p.all ++ [n]) := by
  cases l with
  | none =>
    show (p.roots ++ [n] ++ (listed p.items ++ listed p.layers)).Perm
      (p.roots ++ (listed p.items ++ listed p.layers) ++ [n])
    rw [List.append_assoc, List.append_assoc]
    exact List.Perm.append_left _ List.perm_append_comm
  | some l =>
    show (p.roots ++ (listed p.items ++ listed (pushTo p.layers l n))).Perm
      (p.roots ++ (listed p.items ++ listed p.layers) ++ [n])
    rw [List.append_assoc, List.append_assoc]
    exact ((listed_pushTo _ _ _).append_left _).append_left _

theorem all_item (p : Placement) (k : Str) (n : Nat) : ({ p with items := pushTo p.items k n } : Placement).all.Perm
    (p.all ++ [n]) := by
  show (p.roots ++ (listed (pushTo p.items k n) ++ listed p.layers)).Perm
    (p.roots ++ (listed p.items ++ listed p.layers) ++ [n])
  rw [List.append_assoc]
  refine List.Perm.append_left _ (((listed_pushTo _ _ _).append_right _).trans ?_)
  rw [List.append_assoc, List.append_assoc]
  exact List.Perm.append_left _ List.perm_append_comm

theorem all_put (p : Placement) (m : NamedMesh) (n : Nat) : (p.put m n).all.Perm (p.all ++ [n]) := by
  unfold Placement.put
  cases m.group with
  | none => exact all_hang _ _ _
  | some g => exact all_item _ _ _

theorem hang_good {p : Placement} (hi : GoodMap p.items) (hl : GoodMap p.layers) (l : Option Str) (n : Nat) :
    GoodMap (p.hang l n).items ∧ GoodMap (p.hang l n).layers := by
  cases l with
  | none => exact ⟨hi, hl⟩
  | some l => exact ⟨hi, hl.pushTo l n⟩

/-- a leaf that hangs somewhere -/
theorem Hung.leaf {nodes : List Node} {p q : Placement} {n : Node} (h : Hung nodes p) (hn : n.children = none)
    (hq : q.all.Perm (p.all ++ [nodes.length])) (hi : GoodMap q.items) (hl : GoodMap q.layers) : Hung (nodes ++ [n]) q where
  once := by
    rw [allChildren_append, allChildren_leaf hn, List.append_nil, List.length_append, List.length_singleton, range_snoc]
    refine (hq.append_right _).trans ?_
    rw [List.append_assoc]
    refine (List.Perm.append_left _ List.perm_append_comm).trans ?_
    rw [← List.append_assoc]
    exact h.once.append_right _
  before := by
    intro i hi c hc
    rcases getElem_snoc hi with ⟨he, _⟩ | ⟨h', he⟩
    · rw [he, hn] at hc
      simp at hc
    · rw [he] at hc
      exact h.before i h' c hc
  filled := by
    intro m hm
    rcases List.mem_append.mp hm with hm | hm
    · exact h.filled m hm
    · rw [List.mem_singleton.mp hm, hn]
      simp
  items := hi
  layers := hl

theorem put_good {p : Placement} (hi : GoodMap p.items) (hl : GoodMap p.layers) (m : NamedMesh) (n : Nat) :
    GoodMap (p.put m n).items ∧ GoodMap (p.put m n).layers := by
  unfold Placement.put
  cases m.group with
  | none => exact hang_good hi hl _ _
  | some g => exact ⟨hi.pushTo g n, hl⟩

/-- a node with children, which hangs in their place -/
theorem Hung.parent {nodes : List Node} {p q : Placement} {n : Node} {cs : List Nat} (h : Hung nodes p)
    (hn : n.children = some cs) (hne : cs ≠ []) (hq : (q.all ++ cs).Perm (p.all ++ [nodes.length]))
    (hlt : ∀ c ∈ cs, c < nodes.length)
    (hi : GoodMap q.items) (hl : GoodMap q.layers) : Hung (nodes ++ [n]) q where
  once := by
    have hc : allChildren [n] = cs := by simp [allChildren, hn]
    rw [allChildren_append, hc, List.length_append, List.length_singleton, range_snoc]
    refine (List.Perm.append_left _ List.perm_append_comm).trans ?_
    rw [← List.append_assoc]
    refine (hq.append_right _).trans ?_
    rw [List.append_assoc]
    refine (List.Perm.append_left _ List.perm_append_comm).trans ?_
    rw [← List.append_assoc]
    exact h.once.append_right _
  before := by
    intro i hi c hc
    rcases getElem_snoc hi with ⟨he, hi'⟩ | ⟨h', he⟩
    · rw [he, hn] at hc
      exact hi' ▸ hlt c hc
    · rw [he] at hc
      exact h.before i h' c hc
  filled := by
    intro m hm
    rcases List.mem_append.mp hm with hm | hm
    · exact h.filled m hm
    · rw [List.mem_singleton.mp hm, hn]
      simpa using hne
  items := hi
  layers := hl

theorem Hung.lt {nodes : List Node} {p : Placement} (h : Hung nodes p) {c : Nat} (hc : c ∈ p.all) : c < nodes.length := by
  have := h.once.mem_iff.mp (List.mem_append_left _ hc)
  exact List.mem_range.mp this

theorem setExtras_children (nodes : List Node) (i : Nat) (j : J) :
    (setExtras nodes i j).map (·.children) = nodes.map (·.children) := by
  apply List.ext_getElem
  · simp [setExtras]
  · intro k h1 h2
    simp only [List.getElem_map, setExtras, List.getElem_modify]
    split <;> rfl

theorem allChildren_map (nodes : List Node) : allChildren nodes = (nodes.map (·.children)).flatMap (·.getD []) := by
  simp [allChildren, List.flatMap_map]

theorem Hung.congr {a b : List Node} {p : Placement} (h : Hung a p) (hab : b.map (·.children) = a.map (·.children)) :
    Hung b p := by
  have hl : b.length = a.length := by simpa using congrArg List.length hab
  have hg : ∀ i (hb : i < b.length) (ha : i < a.length), b[i].children = a[i].children := by
    intro i hb ha
    have := congrArg (·[i]?) hab
    simpa [hb, ha] using this
  refine ⟨?_, ?_, ?_, h.items, h.layers⟩
  · rw [allChildren_map, hab, ← allChildren_map, hl]
    exact h.once
  · intro i hi c hc
    rw [hg i hi (hl ▸ hi)] at hc
    exact h.before i (hl ▸ hi) c hc
  · intro n hn
    obtain ⟨i, hi, rfl⟩ := List.mem_iff_getElem.mp hn
    rw [hg i hi (hl ▸ hi)]
    exact h.filled _ (List.getElem_mem _)

theorem all_take {p : Placement} {k : Str} {v : List Nat} (hp : GoodMap p.items) (h : mapGet p.items k = some v) :
    p.all.Perm (({ p with items := p.items.filter fun e => e.1 != k } : Placement).all ++ v) := by
  show (p.roots ++ (listed p.items ++ listed p.layers)).Perm (p.roots ++ (listed _ ++ listed p.layers) ++ v)
  rw [List.append_assoc]
  refine List.Perm.append_left _ (((mapGet_listed hp.keys h).append_right _).trans ?_)
  rw [List.append_assoc]
  exact List.perm_append_comm

theorem Hung.group {s : List Node × Placement} (h : Hung s.1 s.2) (g : ItemGroup) :
    Hung (addGroup s g).1 (addGroup s g).2 := by
  unfold addGroup
  cases hm : mapGet s.2.items g.name with
  | none => exact h
  | some cs =>
    dsimp only
    have ha := all_take h.items hm
    have hne : cs ≠ [] := h.items.nonempty _ (mapGet_mem hm)
    have hlt : ∀ c ∈ cs, c < s.1.length := fun c hc => h.lt (ha.mem_iff.mpr (List.mem_append_right _ hc))
    have hg := hang_good (p := { s.2 with items := s.2.items.filter fun e => e.1 != g.name }) (h.items.filter g.name)
      h.layers
    match cs, hne, ha, hlt with
    | [c], _, ha, _ =>
      refine Hung.congr (a := s.1) ⟨?_, h.before, h.filled, (hg _ _).1, (hg _ _).2⟩ (setExtras_children _ _ _)
      exact (((all_hang _ _ _).trans ha.symm).append_right _).trans h.once
    | c :: d :: cs, hne, ha, hlt =>
      refine h.parent (n := { emptyNode g.name with children := some (c :: d :: cs), extras := some g.extras }) rfl hne
        ?_ hlt (hg _ _).1 (hg _ _).2
      refine ((all_hang _ _ _).append_right _).trans ?_
      rw [List.append_assoc]
      refine (List.Perm.append_left _ List.perm_append_comm).trans ?_
      rw [← List.append_assoc]
      exact ha.symm.append_right _

theorem Hung.groups {gs : List ItemGroup} : ∀ {s : List Node × Placement}, Hung s.1 s.2 →
    Hung (gs.foldl addGroup s).1 (gs.foldl addGroup s).2 := by
  induction gs with
  | nil => exact fun h => h
  | cons g gs ih => exact fun h => ih (h.group g)

theorem addGroup_items (s : List Node × Placement) (g : ItemGroup) :
    (addGroup s g).2.items = s.2.items.filter fun e => e.1 != g.name := by
  have hh : ∀ (p : Placement) l n, (p.hang l n).items = p.items := fun p l n => by cases l <;> rfl
  unfold addGroup
  cases hm : mapGet s.2.items g.name with
  | none => exact (filter_absent (mapGet_none hm)).symm
  | some cs =>
    dsimp only
    match cs with
    | [] => rfl
    | [c] => exact hh _ _ _
    | c :: d :: cs => exact hh _ _ _

theorem groups_items : ∀ (gs : List ItemGroup) (s : List Node × Placement), ∀ e ∈ (gs.foldl addGroup s).2.items,
    e ∈ s.2.items ∧ e.1 ∉ gs.map (·.name)
  | [], s, e, he => ⟨he, by simp⟩
  | g :: gs, s, e, he => by
    obtain ⟨h1, h2⟩ := groups_items gs (addGroup s g) e he
    rw [addGroup_items] at h1
    have := List.mem_filter.mp h1
    refine ⟨this.1, ?_⟩
    rw [List.map_cons, List.mem_cons]
    rintro (h | h)
    · simp [h] at this
    · exact h2 h

/-- the layers, with a placement that has no others -/
theorem Hung.layer {nodes : List Node} {roots : List Nat} {l : Str × List Nat} {ls : List (Str × List Nat)}
    (h : Hung nodes ⟨[], l :: ls, roots⟩) :
    Hung (addLayer (nodes, roots) l).1 ⟨[], ls, (addLayer (nodes, roots) l).2⟩ := by
  have hk := h.layers.keys
  rw [List.map_cons, List.nodup_cons] at hk
  refine h.parent (cs := l.2) (n := { emptyNode l.1 with children := some l.2 }) rfl (h.layers.nonempty l (by simp)) ?_ ?_
    GoodMap.nil ⟨hk.2, fun e he => h.layers.nonempty e (by simp [he])⟩
  · show (roots ++ [nodes.length] ++ listed ls ++ l.2).Perm (roots ++ (l.2 ++ listed ls) ++ [nodes.length])
    rw [List.append_assoc, List.append_assoc, List.append_assoc]
    refine List.Perm.append_left _ ?_
    refine List.perm_append_comm.trans (List.Perm.append_right _ ?_)
    exact List.perm_append_comm
  · intro c hc
    apply h.lt
    show c ∈ roots ++ (l.2 ++ listed ls)
    simp [hc]

theorem Hung.layerFold : ∀ {ls : List (Str × List Nat)} {s : List Node × List Nat}, Hung s.1 ⟨[], ls, s.2⟩ →
    Hung (ls.foldl addLayer s).1 ⟨[], [], (ls.foldl addLayer s).2⟩
  | [], _, h => h
  | l :: ls, s, h => Hung.layerFold (ls := ls) (s := addLayer s l) h.layer

theorem Hung.layerPerm {nodes : List Node} {roots : List Nat} {ls ls' : List (Str × List Nat)}
    (h : Hung nodes ⟨[], ls, roots⟩) (hp : ls'.Perm ls) : Hung nodes ⟨[], ls', roots⟩ where
  once := by
    refine List.Perm.trans (List.Perm.append_right _ ?_) h.once
    exact List.Perm.append_left _ (hp.flatMap_right _)
  before := h.before
  filled := h.filled
  items := GoodMap.nil
  layers := ⟨(hp.map _).nodup_iff.mpr h.layers.keys, fun e he => h.layers.nonempty e (hp.mem_iff.mp he)⟩

end Vpin
