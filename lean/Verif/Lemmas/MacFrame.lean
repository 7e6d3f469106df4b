import Verif.Lemmas.Mac
/-
The checksum depends on the covered streams only.
-/
namespace Vpin
variable {L : CfbLib}

theorem Cfb.get_mem {c : Cfb} {p : Path} {e : Entry} (h : c.get L p = some e) (hp : p ≠ []) :
    ∃ q, (q, e) ∈ c ∧ L.key q = L.key p := by
  unfold Cfb.get at h
  rw [if_neg hp] at h
  cases hf : c.find? (fun e => L.key e.1 == L.key p) with
  | none => rw [hf] at h; cases h
  | some x =>
    rw [hf] at h
    cases h
    exact ⟨x.1, List.mem_of_find?_eq_some hf, by simpa using List.find?_some hf⟩

theorem coll_ne (i : Nat) : itemPath "Collection".toList i ≠ [] := by simp [itemPath, gamePath]

/-- There are at most as many collections as entries. -/
theorem collections_bound {c : Cfb} {n : Nat}
    (h : ∀ i < n, c.exists L (itemPath "Collection".toList i) = true) : n ≤ c.length := by
  have h1 : ((List.range n).map fun i => L.key (itemPath "Collection".toList i)).Nodup := by
    unfold List.Nodup
    rw [List.pairwise_map]
    exact List.Pairwise.imp (fun hab he => hab (key_item_inj (by decide) he)) List.nodup_range
  have h2 : ((List.range n).map fun i => L.key (itemPath "Collection".toList i)) ⊆ c.map fun e => L.key e.1 := by
    intro k hk
    obtain ⟨i, hi, rfl⟩ := List.mem_map.1 hk
    have hi' : i < n := by simpa using hi
    have := h i hi'
    unfold Cfb.exists at this
    obtain ⟨e, he⟩ := Option.isSome_iff_exists.1 this
    obtain ⟨q, hq, hk⟩ := Cfb.get_mem he (coll_ne i)
    exact List.mem_map.2 ⟨(q, e), hq, hk⟩
  have := List.Nodup.length_le_of_subset h1 h2
  simpa using this

theorem takeWhile_range {p : Nat → Bool} {n m : Nat} (h : ∀ i < n, p i = true) (hn : p n = false)
    (hm : n < m) : (List.range m).takeWhile p = List.range n := by
  obtain ⟨k, rfl⟩ : ∃ k, m = n + (k + 1) := ⟨m - n - 1, by omega⟩
  rw [List.range_add, List.takeWhile_append_of_pos (by simpa using h), List.range_succ_eq_map,
    List.map_cons, List.takeWhile_cons_of_neg (by simp [hn])]
  simp

/-- The collections the checksum goes through: those up to the first one missing. -/
theorem collectionPaths_eq (c : Cfb) :
    ∃ n, (∀ i < n, c.exists L (itemPath "Collection".toList i) = true) ∧
      c.exists L (itemPath "Collection".toList n) = false ∧
      collectionPaths L c = (List.range n).map (itemPath "Collection".toList) := by
  have hex : ∃ n, c.exists L (itemPath "Collection".toList n) = false := by
    refine Classical.byContradiction fun hno => ?_
    have hall : ∀ i, c.exists L (itemPath "Collection".toList i) = true := by
      intro i
      cases hb : c.exists L (itemPath "Collection".toList i) with
      | true => rfl
      | false => exact absurd ⟨i, hb⟩ hno
    have := collections_bound (L := L) (c := c) (n := c.length + 1) fun i _ => hall i
    omega
  have hmin : ∃ n, (∀ i < n, c.exists L (itemPath "Collection".toList i) = true) ∧
      c.exists L (itemPath "Collection".toList n) = false := by
    obtain ⟨n, hn⟩ := hex
    induction n using Nat.strongRecOn with
    | _ n ih =>
      by_cases hall : ∀ i < n, c.exists L (itemPath "Collection".toList i) = true
      · exact ⟨n, hall, hn⟩
      · have : ∃ i, i < n ∧ c.exists L (itemPath "Collection".toList i) = false := by
          refine Classical.byContradiction fun hno => hall fun i hi => ?_
          cases hb : c.exists L (itemPath "Collection".toList i) with
          | true => rfl
          | false => exact absurd ⟨i, hi, hb⟩ hno
        obtain ⟨i, hi, hb⟩ := this
        exact ih i hi hb
  obtain ⟨n, h1, h2⟩ := hmin
  refine ⟨n, h1, h2, ?_⟩
  unfold collectionPaths
  rw [List.takeWhile_map]
  have := collections_bound h1
  rw [takeWhile_range (p := c.exists L ∘ itemPath "Collection".toList) h1 h2 (by omega)]

theorem collectionPaths_of {c : Cfb} {n : Nat}
    (h1 : ∀ i < n, c.exists L (itemPath "Collection".toList i) = true)
    (h2 : c.exists L (itemPath "Collection".toList n) = false) :
    collectionPaths L c = (List.range n).map (itemPath "Collection".toList) := by
  unfold collectionPaths
  rw [List.takeWhile_map]
  have := collections_bound h1
  rw [takeWhile_range (p := c.exists L ∘ itemPath "Collection".toList) h1 h2 (by omega)]

theorem concatM_congr {α : Type} {f g : α → Res Bytes} {l : List α} (h : ∀ x ∈ l, f x = g x) :
    concatM f l = concatM g l := by
  induction l with
  | nil => rfl
  | cons x xs ih =>
    unfold concatM
    rw [h x (by simp), ih fun y hy => h y (by simp [hy])]

theorem concatM_ok {α : Type} {f : α → Res Bytes} {l : List α} (h : ∀ x ∈ l, ∃ b, f x = .ok b) :
    ∃ b, concatM f l = .ok b := by
  induction l with
  | nil => exact ⟨[], rfl⟩
  | cons x xs ih =>
    obtain ⟨a, ha⟩ := h x (by simp)
    obtain ⟨b, hb⟩ := ih fun y hy => h y (by simp [hy])
    refine ⟨a ++ b, ?_⟩
    unfold concatM
    rw [ha, hb]; rfl

theorem openStream_congr {c c' : Cfb} {p : Path} (h : c.get L p = c'.get L p) :
    c.openStream L p = c'.openStream L p := by
  unfold Cfb.openStream; rw [h]

theorem exists_congr' {c c' : Cfb} {p : Path} (h : c.get L p = c'.get L p) :
    c.exists L p = c'.exists L p := by
  unfold Cfb.exists; rw [h]

theorem bytesIf_congr {c c' : Cfb} {p : Path} (h : c.get L p = c'.get L p) :
    bytesIf L c p = bytesIf L c' p := by
  unfold bytesIf; rw [exists_congr' h, openStream_congr h]

theorem hashBiffIf_congr {c c' : Cfb} {p : Path} (h : c.get L p = c'.get L p) :
    hashBiffIf L c p = hashBiffIf L c' p := by
  unfold hashBiffIf; rw [exists_congr' h, openStream_congr h]

theorem bytesIfAt_congr {c c' : Cfb} {s : Str} (h : ∀ p, pathOf s = some p → c.get L p = c'.get L p) :
    bytesIfAt L c s = bytesIfAt L c' s := by
  unfold bytesIfAt Cfb.existsAt Cfb.openAt
  cases hp : pathOf s with
  | none => rfl
  | some p => exact bytesIf_congr (h p hp)

/-- the custom info tags named in a file, none if they cannot be read -/
def tagNames (L : CfbLib) (c : Cfb) : List Str :=
  match c.get L (gamePath "CustomInfoTags".toList) with
  | some (.stream bs) =>
    match custNames bs with
    | .ok l => l
    | .error _ => []
  | _ => []

/-- The parts of the checksum input except the game data agree if the files agree on their paths. -/
theorem macParts_congr {c c' : Cfb}
    (hv : c.get L (gamePath "Version".toList) = c'.get L (gamePath "Version".toList))
    (hi : ∀ n ∈ hashedInfo, c.get L [infoStg, n] = c'.get L [infoStg, n])
    (hc : c.get L (gamePath "CustomInfoTags".toList) = c'.get L (gamePath "CustomInfoTags".toList))
    (ht : ∀ t ∈ tagNames L c, ∀ p, pathOf (infoStg ++ ['/'] ++ t) = some p → c.get L p = c'.get L p)
    (hk : ∀ i, c.get L (itemPath "Collection".toList i) = c'.get L (itemPath "Collection".toList i)) :
    bytesIf L c (gamePath "Version".toList) = bytesIf L c' (gamePath "Version".toList) ∧
    concatM (fun n => bytesIf L c [infoStg, n]) hashedInfo
      = concatM (fun n => bytesIf L c' [infoStg, n]) hashedInfo ∧
    hashCustom L c = hashCustom L c' ∧
    concatM (hashBiffIf L c) (collectionPaths L c) = concatM (hashBiffIf L c') (collectionPaths L c') := by
  have e1 := bytesIf_congr hv
  have e2 : concatM (fun n => bytesIf L c [infoStg, n]) hashedInfo
      = concatM (fun n => bytesIf L c' [infoStg, n]) hashedInfo :=
    concatM_congr fun n hn => bytesIf_congr (hi n hn)
  have e3 : hashCustom L c = hashCustom L c' := by
    unfold hashCustom
    rw [exists_congr' hc, ← openStream_congr hc]
    split
    · cases ho : c.openStream L (gamePath "CustomInfoTags".toList) with
      | error e => rfl
      | ok bs =>
        have hg : c.get L (gamePath "CustomInfoTags".toList) = some (.stream bs) := by
          unfold Cfb.openStream at ho
          split at ho
          · next b hb => cases ho; exact hb
          · cases ho
        have hcm : ∀ names, custNames bs = .ok names →
            concatM (fun name => bytesIfAt L c (infoStg ++ ['/'] ++ name)) names
              = concatM (fun name => bytesIfAt L c' (infoStg ++ ['/'] ++ name)) names := by
          intro names hn
          have hnames : tagNames L c = names := by unfold tagNames; rw [hg]; dsimp only; rw [hn]
          exact concatM_congr fun t htm => bytesIfAt_congr (ht t (by rw [hnames]; exact htm))
        cases hn : custNames bs with
        | error e => cases hb : hashBiff bs <;> simp only [bind, Except.bind, hb, hn]
        | ok names => cases hb : hashBiff bs <;> simp only [bind, Except.bind, hb, hn, hcm names hn]
    · rfl
  have e5 : collectionPaths L c = collectionPaths L c' := by
    obtain ⟨n, h1, h2, h3⟩ := collectionPaths_eq (L := L) c
    rw [h3]
    refine (collectionPaths_of ?_ ?_).symm
    · intro i hi; rw [← exists_congr' (hk i)]; exact h1 i hi
    · rw [← exists_congr' (hk n)]; exact h2
  have e6 : concatM (hashBiffIf L c) (collectionPaths L c) = concatM (hashBiffIf L c') (collectionPaths L c') := by
    rw [← e5]
    obtain ⟨n, -, -, h3⟩ := collectionPaths_eq (L := L) c
    rw [h3]
    refine concatM_congr ?_
    intro p hp
    obtain ⟨i, -, rfl⟩ := List.mem_map.1 hp
    exact hashBiffIf_congr (hk i)
  exact ⟨e1, e2, e3, e6⟩

/-- The checksum input of two files agrees if they agree on the covered paths. -/
theorem macInput_congr {c c' : Cfb}
    (hv : c.get L (gamePath "Version".toList) = c'.get L (gamePath "Version".toList))
    (hi : ∀ n ∈ hashedInfo, c.get L [infoStg, n] = c'.get L [infoStg, n])
    (hc : c.get L (gamePath "CustomInfoTags".toList) = c'.get L (gamePath "CustomInfoTags".toList))
    (ht : ∀ t ∈ tagNames L c, ∀ p, pathOf (infoStg ++ ['/'] ++ t) = some p → c.get L p = c'.get L p)
    (hd : c.get L (gamePath "GameData".toList) = c'.get L (gamePath "GameData".toList))
    (hk : ∀ i, c.get L (itemPath "Collection".toList i) = c'.get L (itemPath "Collection".toList i)) :
    macInput L c = macInput L c' := by
  obtain ⟨e1, e2, e3, e6⟩ := macParts_congr hv hi hc ht hk
  have e4 := hashBiffIf_congr hd
  unfold macInput
  rw [e1, e2, e3, e4, e6]

/-- If only the game data differs, the checksum input exists as long as the new game data can be hashed. -/
theorem macInput_ok_of {c c' : Cfb}
    (hv : c.get L (gamePath "Version".toList) = c'.get L (gamePath "Version".toList))
    (hi : ∀ n ∈ hashedInfo, c.get L [infoStg, n] = c'.get L [infoStg, n])
    (hc : c.get L (gamePath "CustomInfoTags".toList) = c'.get L (gamePath "CustomInfoTags".toList))
    (ht : ∀ t ∈ tagNames L c, ∀ p, pathOf (infoStg ++ ['/'] ++ t) = some p → c.get L p = c'.get L p)
    (hk : ∀ i, c.get L (itemPath "Collection".toList i) = c'.get L (itemPath "Collection".toList i))
    {b d : Bytes} (hb : macInput L c = .ok b) (hd : hashBiffIf L c' (gamePath "GameData".toList) = .ok d) :
    ∃ b', macInput L c' = .ok b' := by
  obtain ⟨e1, e2, e3, e6⟩ := macParts_congr hv hi hc ht hk
  unfold macInput at hb ⊢
  rw [← e1, ← e2, ← e3, ← e6, hd]
  cases h1 : bytesIf L c (gamePath "Version".toList) with
  | error e => rw [h1] at hb; cases hb
  | ok v =>
    rw [h1] at hb
    cases h2 : concatM (fun n => bytesIf L c [infoStg, n]) hashedInfo with
    | error e => rw [h2] at hb; cases hb
    | ok i =>
      rw [h2] at hb
      cases h3 : hashCustom L c with
      | error e => rw [h3] at hb; cases hb
      | ok cu =>
        rw [h3] at hb
        cases h4 : hashBiffIf L c (gamePath "GameData".toList) with
        | error e => rw [h4] at hb; cases hb
        | ok gd =>
          rw [h4] at hb
          cases h5 : concatM (hashBiffIf L c) (collectionPaths L c) with
          | error e => rw [h5] at hb; cases hb
          | ok cs => exact ⟨_, rfl⟩

end Vpin
