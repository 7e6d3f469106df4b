import Verif.Lemmas.TableInfo
/-
C21: table info round trip.
-/
namespace Vpin
variable {L : CfbLib}

/-- The entry does not touch the storage `TableInfo`: neither the storage itself nor directly in it. -/
def OutsideInfo (L : CfbLib) (c : Cfb) : Prop :=
  c.get L [infoStg] = none ∧ (∀ n, c.get L [infoStg, n] = none) ∧
    ∀ e ∈ c, L.key e.1.dropLast ≠ L.key [infoStg]

/-- **C21.** A table info whose property names are valid and distinct, ignoring case, from each other and
from the twelve fixed names comes back from the file it was written to: every fixed text, the
screenshot bytes and the map of properties, in whatever order the library lists the streams, and
whatever else is in the file. Nothing else in the file changes. -/
theorem C21_tableinfo_roundtrip {s : TableInfo} (h : s.WF L) {c : Cfb} (hc : OutsideInfo L c) :
    ∃ c' s', s.write L c = .ok c' ∧ TableInfo.read L c' = .ok s' ∧ s.Same s' ∧
      ∃ added, c' = c ++ added ∧ ∀ e ∈ added, e.1.head? = some infoStg := by
  obtain ⟨h1, h2, h3⟩ := hc
  have hw := TableInfo.write_ok h h1 h2
  have hg : Cfb.get L (c ++ [([infoStg], Entry.storage)] ++ infoEntries s.streams) [infoStg]
      = some .storage := by
    refine Cfb.get_append_some ?_
    rw [Cfb.get_append_one h1, if_pos rfl]
  have hch : infoChildren L (c ++ [([infoStg], Entry.storage)] ++ infoEntries s.streams)
      = s.streams.map fun x => (x.1, .stream x.2) := by
    have e0 : infoChildren L (c ++ [([infoStg], Entry.storage)]) = [] := by
      refine infoChildren_none ?_
      intro e he
      rcases List.mem_append.1 he with he | he
      · exact h3 e he
      · rw [List.mem_singleton.1 he]; simp [CfbLib.key]
    have e1 := infoChildren_entries (L := L) s.streams
    unfold infoChildren at e0 e1 ⊢
    rw [List.filterMap_append, e0, e1]; rfl
  obtain ⟨s', hr, hs⟩ := TableInfo.read_of_children h hg hch
  refine ⟨_, s', hw, hr, hs, [([infoStg], Entry.storage)] ++ infoEntries s.streams, by simp, ?_⟩
  intro e he
  rcases List.mem_append.1 he with he | he
  · rw [List.mem_singleton.1 he]; rfl
  · unfold infoEntries at he
    obtain ⟨x, -, rfl⟩ := List.mem_map.1 he
    rfl

example : TableInfo.sample.WF sampleLib := ⟨by decide +kernel, by decide +kernel⟩

example : OutsideInfo sampleLib [(["GameStg".toList], .storage), (["GameStg".toList, "Version".toList], .stream [1])] := by
  refine ⟨by decide, fun n => ?_, by decide⟩
  refine get_none_of_kind (by simp) ?_
  intro e he h
  rw [kind_info] at h
  have h' : List.head? (sampleLib.kind e.1) = some (infoStg.map asciiUpper) := congrArg List.head? h
  simp only [List.mem_cons, List.not_mem_nil, or_false] at he
  rcases he with rfl | rfl <;> exact absurd h' (by decide +kernel)

/-- What comes back of the texts and properties of a table info, in terms of lookups: `Same` is equality of
every fixed field and of the map of properties. -/
theorem TableInfo.Same.lookup {s s' : TableInfo} (h : s.Same s')
    (hd : (s.properties.map (·.1)).Nodup) (k v : Str) :
    (k, v) ∈ s'.properties ↔ s.properties.lookup k = some v := by
  rw [← h.2.mem_iff]
  generalize s.properties = l at hd
  induction l with
  | nil => simp
  | cons x xs ih =>
    obtain ⟨a, b⟩ := x
    simp only [List.map_cons, List.nodup_cons] at hd
    by_cases hk : k = a
    · subst hk
      simp only [List.lookup_cons, beq_self_eq_true, List.mem_cons, Prod.mk.injEq, true_and]
      constructor
      · rintro (rfl | h)
        · rfl
        · exact absurd (List.mem_map_of_mem (f := (·.1)) h) hd.1
      · intro h; cases h; exact .inl rfl
    · have : (k == a) = false := by simpa using hk
      simp only [List.lookup_cons, this, List.mem_cons, Prod.mk.injEq, hk, false_and, false_or]
      exact ih hd.2

/-- The condition on names is needed: a property called like a fixed field overwrites that field. -/
theorem C21_reserved_property_overwrites :
    let s := { TableInfo.new with
      table_name := some "A".toList, properties := [("TableName".toList, "B".toList)] }
    ((s.write sampleLib []).bind (TableInfo.read sampleLib)) =
      .ok { TableInfo.new with table_name := some "B".toList } := by decide +kernel

/-- Two properties whose names differ in case only become one. -/
theorem C21_case_collision_loses :
    let s := { TableInfo.new with properties := [("prop".toList, "A".toList), ("PROP".toList, "B".toList)] }
    ((s.write sampleLib []).bind (TableInfo.read sampleLib)) =
      .ok { TableInfo.new with properties := [("prop".toList, "B".toList)] } := by decide +kernel

/-- A property name of more than 31 UTF-16 units, or with a `:`, makes writing fail. -/
theorem C21_bad_name_fails :
    ({ TableInfo.new with properties := [("a:b".toList, [])] } : TableInfo).write sampleLib [] = .error .io ∧
    ({ TableInfo.new with properties := [(List.replicate 32 'x', [])] } : TableInfo).write sampleLib []
      = .error .io := by
  constructor <;> decide +kernel

end Vpin
