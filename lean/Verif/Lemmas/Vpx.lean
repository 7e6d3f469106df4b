import Verif.Spec.Vpx
import Verif.Lemmas.MacFrame
import Verif.Props.Items
import Verif.Props.Image
import Verif.Props.Sound
import Verif.Props.FontData
import Verif.Props.Version
/-
Writing a table stream by stream.
-/
namespace Vpin
variable {L : CfbLib}

/-- no two entries have the same path -/
def Cfb.Distinct (L : CfbLib) (c : Cfb) : Prop := (c.map fun e => L.key e.1).Nodup

theorem Cfb.get_of_mem {c : Cfb} (hd : c.Distinct L) {p : Path} {e : Entry} (h : (p, e) ∈ c) (hp : p ≠ []) :
    c.get L p = some e := by
  induction c with
  | nil => cases h
  | cons x xs ih =>
    obtain ⟨q, f⟩ := x
    rw [Cfb.get_cons hp]
    unfold Cfb.Distinct at hd
    rw [List.map_cons, List.nodup_cons] at hd
    rcases List.mem_cons.1 h with h | h
    · cases h; rw [if_pos rfl]
    · rw [if_neg]
      · exact ih hd.2 h
      · intro hk
        refine hd.1 ?_
        rw [hk]
        exact List.mem_map_of_mem (f := fun e : Path × Entry => L.key e.1) h

theorem Cfb.Distinct.append_one {c : Cfb} (hd : c.Distinct L) {p : Path} {e : Entry}
    (h : c.get L p = none) : Cfb.Distinct L (c ++ [(p, e)]) := by
  have hp : p ≠ [] := by
    rintro rfl
    rw [Cfb.get_root] at h; cases h
  unfold Cfb.Distinct at hd ⊢
  rw [List.map_append]
  refine List.nodup_append.2 ⟨hd, by simp, ?_⟩
  intro a ha b hb he
  subst he
  rw [List.map_cons, List.map_nil, List.mem_singleton] at hb
  subst hb
  obtain ⟨x, hx, hk⟩ := List.mem_map.1 ha
  obtain ⟨q, f⟩ := x
  have hq : q ≠ [] := by
    rintro rfl
    exact key_ne_nil (L := L) hp hk.symm
  have := Cfb.get_of_mem hd hx hq
  rw [Cfb.get_congr hk, h] at this
  cases this

/-- the folded parts of a path `GameStg/<name><number>` -/
def gkind (name : Str) : List Str := [gameStg.map asciiUpper, name.map asciiUpper]

/-- a file under construction: `GameStg` exists, its streams so far are of the given kinds -/
structure St (L : CfbLib) (c : Cfb) (ks : List (List Str)) : Prop where
  distinct : c.Distinct L
  kinds : ∀ e ∈ c, L.kind e.1 ∈ ks ∨ (∃ n, L.kind e.1 = infoStg.map asciiUpper :: n)
  stg : c.get L [gameStg] = some .storage
  storages : ∀ e ∈ c, e.2 = .storage → e.1.length = 1

theorem St.fresh {c : Cfb} {ks : List (List Str)} (h : St L c ks) {p : Path} {name : Str}
    (hp : L.kind p = gkind name) (hk : gkind name ∉ ks) : c.get L p = none := by
  refine get_none_of_kind ?_ ?_
  · rintro rfl
    cases hp
  · intro e he hke
    rw [hp] at hke
    rcases h.kinds e he with h1 | ⟨n, h1⟩
    · rw [hke] at h1; exact hk h1
    · rw [hke] at h1
      have h2 : some (gameStg.map asciiUpper) = some (infoStg.map asciiUpper) := congrArg List.head? h1
      exact absurd h2 (by decide)

theorem St.add {c : Cfb} {ks : List (List Str)} (h : St L c ks) {p : Path} {bs : Bytes} {k : List Str}
    (hg : c.get L p = none) (hk : L.kind p = k) : St L (c ++ [(p, .stream bs)]) (k :: ks) where
  distinct := h.distinct.append_one hg
  kinds := by
    intro e he
    rcases List.mem_append.1 he with he | he
    · rcases h.kinds e he with h1 | h1
      · exact .inl (List.mem_cons_of_mem _ h1)
      · exact .inr h1
    · rw [List.mem_singleton.1 he]
      exact .inl (by rw [hk]; exact List.mem_cons_self)
  stg := Cfb.get_append_some h.stg
  storages := by
    intro e he hs
    rcases List.mem_append.1 he with he | he
    · exact h.storages e he hs
    · rw [List.mem_singleton.1 he] at hs; cases hs

theorem St.mono {c : Cfb} {ks ks' : List (List Str)} (h : St L c ks) (hs : ∀ k ∈ ks, k ∈ ks') :
    St L c ks' :=
  { h with kinds := fun e he => (h.kinds e he).imp_left (hs _) }

/-- one stream with a fixed name -/
theorem St.stream {c : Cfb} {ks : List (List Str)} (h : St L c ks) {name : Str} (hs : Stem name)
    (hk : gkind name ∉ ks) (hn : validName name = true) (bs : Bytes) :
    c.createStream L (gamePath name) bs = .ok (c ++ [(gamePath name, .stream bs)]) ∧
      St L (c ++ [(gamePath name, .stream bs)]) (gkind name :: ks) := by
  have hf := h.fresh (kind_game hs) hk
  exact ⟨Cfb.createStream_fresh (d := [gameStg]) bs hf h.stg hn, h.add hf (kind_game hs)⟩

/-- streams `GameStg/<name><i>`, `GameStg/<name><i+1>`, ... -/
def blockEntries (name : Str) : Nat → List Bytes → Cfb
  | _, [] => []
  | i, b :: bs => (itemPath name i, .stream b) :: blockEntries name (i + 1) bs

theorem blockEntries_mem {name : Str} {i : Nat} {l : List Bytes} {k : Nat} {b : Bytes}
    (h : l[k]? = some b) : (itemPath name (i + k), Entry.stream b) ∈ blockEntries name i l := by
  induction l generalizing i k with
  | nil => simp at h
  | cons x xs ih =>
    cases k with
    | zero => simp at h; subst h; exact List.mem_cons_self
    | succ k =>
      have := ih (i := i + 1) (k := k) (by simpa using h)
      rw [show i + 1 + k = i + (k + 1) by omega] at this
      exact List.mem_cons_of_mem _ this

theorem blockEntries_inv {name : Str} {i : Nat} {l : List Bytes} {e : Path × Entry}
    (h : e ∈ blockEntries name i l) :
    ∃ k b, l[k]? = some b ∧ e = (itemPath name (i + k), Entry.stream b) := by
  induction l generalizing i with
  | nil => cases h
  | cons x xs ih =>
    rcases List.mem_cons.1 h with h | h
    · exact ⟨0, x, by simp, h⟩
    · obtain ⟨k, b, h1, h2⟩ := ih h
      refine ⟨k + 1, b, by simpa using h1, ?_⟩
      rw [h2, show i + 1 + k = i + (k + 1) by omega]

/-- `encs` is what `enc` makes of `xs` -/
def Encodes {α : Type} (enc : α → Res Bytes) : List α → List Bytes → Prop
  | [], [] => True
  | x :: xs, b :: bs => enc x = .ok b ∧ Encodes enc xs bs
  | _, _ => False

theorem Encodes.length {α : Type} {enc : α → Res Bytes} {xs : List α} {bs : List Bytes}
    (h : Encodes enc xs bs) : bs.length = xs.length := by
  induction xs generalizing bs with
  | nil => cases bs <;> simp_all [Encodes]
  | cons x xs ih =>
    cases bs with
    | nil => simp [Encodes] at h
    | cons b bs => simp [ih h.2]

theorem Encodes.of {α : Type} {enc : α → Res Bytes} {dec : Bytes → Res α} {xs : List α}
    (h : ∀ x ∈ xs, ∃ b, enc x = .ok b ∧ dec b = .ok x) :
    ∃ bs, Encodes enc xs bs ∧ ∀ (k : Nat) (b : Bytes), bs[k]? = some b → ∃ x, xs[k]? = some x ∧ dec b = .ok x := by
  induction xs with
  | nil => exact ⟨[], trivial, by simp⟩
  | cons x xs ih =>
    obtain ⟨b, h1, h2⟩ := h x (by simp)
    obtain ⟨bs, h3, h4⟩ := ih fun y hy => h y (by simp [hy])
    refine ⟨b :: bs, ⟨h1, h3⟩, ?_⟩
    intro k b' hk
    cases k with
    | zero => simp at hk; subst hk; exact ⟨x, by simp, h2⟩
    | succ k => exact h4 k b' (by simpa using hk)

/-- the state of a block being written: streams up to `i` exist, later ones do not -/
theorem St.item_step {c : Cfb} {ks : List (List Str)} (h : St L c ks) {name : Str} (hs : Stem name)
    (hc : CleanName name) (hk : gkind name ∈ ks) {i : Nat} (hi : i < 2 ^ 32)
    (hf : ∀ j, i ≤ j → c.get L (itemPath name j) = none) (b : Bytes) :
    c.createStream L (itemPath name i) b = .ok (c ++ [(itemPath name i, .stream b)]) ∧
    c.createNewStream L (itemPath name i) b = .ok (c ++ [(itemPath name i, .stream b)]) ∧
    St L (c ++ [(itemPath name i, .stream b)]) ks ∧
    ∀ j, i + 1 ≤ j → Cfb.get L (c ++ [(itemPath name i, .stream b)]) (itemPath name j) = none := by
  have h0 := hf i (Nat.le_refl i)
  have hv := validName_item hc hi
  refine ⟨Cfb.createStream_fresh (d := [gameStg]) b h0 h.stg hv,
    Cfb.createNewStream_fresh (d := [gameStg]) b h0 h.stg hv,
    (h.add h0 (kind_item hs i)).mono ?_, ?_⟩
  · intro k hk'
    rcases List.mem_cons.1 hk' with rfl | h'
    · exact hk
    · exact h'
  · intro j hj
    rw [Cfb.get_append_one h0, if_neg, hf j (by omega)]
    intro he
    have := key_item_inj hs.1 he
    omega

theorem St.block_aux {α : Type} {E : Env} {name : Str} (hs : Stem name) (hc : CleanName name)
    {enc : α → Res Bytes} (xs : List α) : ∀ (bs : List Bytes) (i : Nat) (c : Cfb) (ks : List (List Str)),
    St E.toCfbLib c ks → gkind name ∈ ks → Encodes enc xs bs → i + xs.length ≤ 2 ^ 32 →
    (∀ j, i ≤ j → c.get E.toCfbLib (itemPath name j) = none) →
    writeFrom E name enc i xs c = .ok (c ++ blockEntries name i bs) ∧
    St E.toCfbLib (c ++ blockEntries name i bs) ks ∧
    ∀ j, i + xs.length ≤ j → Cfb.get E.toCfbLib (c ++ blockEntries name i bs) (itemPath name j) = none := by
  induction xs with
  | nil =>
    intro bs i c ks h hk he hl hf
    cases bs with
    | nil => simp only [blockEntries, List.append_nil]; exact ⟨rfl, h, by simpa using hf⟩
    | cons b bs => exact he.elim
  | cons x xs ih =>
    intro bs i c ks h hk he hl hf
    cases bs with
    | nil => exact he.elim
    | cons b bs =>
      rw [List.length_cons] at hl
      obtain ⟨h1, -, h3, h4⟩ := h.item_step hs hc hk (i := i) (by omega) hf b
      obtain ⟨h5, h6, h7⟩ := ih bs (i + 1) _ ks h3 hk he.2 (by omega) h4
      rw [List.append_assoc, List.singleton_append] at h5 h6 h7
      refine ⟨?_, h6, ?_⟩
      · unfold writeFrom
        rw [he.1]
        show (Cfb.createStream _ c _ b >>= _) = _
        rw [h1]
        exact h5
      · intro j hj
        rw [List.length_cons] at hj
        exact h7 j (by omega)

/-- one stream per element -/
theorem St.block {α : Type} {E : Env} {c : Cfb} {ks : List (List Str)} (h : St E.toCfbLib c ks) {name : Str}
    (hs : Stem name) (hc : CleanName name) (hk : gkind name ∉ ks) {enc : α → Res Bytes} {xs : List α}
    {bs : List Bytes} (he : Encodes enc xs bs) (hl : xs.length < 2 ^ 32) :
    writeFrom E name enc 0 xs c = .ok (c ++ blockEntries name 0 bs) ∧
    St E.toCfbLib (c ++ blockEntries name 0 bs) (gkind name :: ks) ∧
    ∀ j, xs.length ≤ j → Cfb.get E.toCfbLib (c ++ blockEntries name 0 bs) (itemPath name j) = none := by
  have := St.block_aux hs hc xs bs 0 c (gkind name :: ks) (h.mono fun k hk => List.mem_cons_of_mem _ hk)
    List.mem_cons_self he (by omega) fun j _ => h.fresh (kind_item hs j) hk
  simpa using this

theorem images_aux {E : Env} (xs : List ImageData) : ∀ (bs : List Bytes) (i : Nat) (c : Cfb) (ks : List (List Str)),
    St E.toCfbLib c ks → gkind "Image".toList ∈ ks → Encodes ImageData.write xs bs →
    i + xs.length ≤ 2 ^ 32 →
    (∀ j, i ≤ j → c.get E.toCfbLib (itemPath "Image".toList j) = none) →
    writeImagesFrom E i xs c = .ok (c ++ blockEntries "Image".toList i bs) ∧
    St E.toCfbLib (c ++ blockEntries "Image".toList i bs) ks := by
  induction xs with
  | nil =>
    intro bs i c ks h hk he hl hf
    cases bs with
    | nil => simp only [blockEntries, List.append_nil]; exact ⟨rfl, h⟩
    | cons b bs => exact he.elim
  | cons x xs ih =>
    intro bs i c ks h hk he hl hf
    cases bs with
    | nil => exact he.elim
    | cons b bs =>
      rw [List.length_cons] at hl
      obtain ⟨-, h1, h3, h4⟩ := h.item_step (name := "Image".toList) (by decide) (by decide) hk (i := i) (by omega) hf b
      obtain ⟨h5, h6⟩ := ih bs (i + 1) _ ks h3 hk he.2 (by omega) h4
      rw [List.append_assoc, List.singleton_append] at h5 h6
      refine ⟨?_, h6⟩
      unfold writeImagesFrom
      rw [he.1]
      show (Cfb.createNewStream _ c _ b >>= _) = _
      rw [h1]
      exact h5

theorem St.images {E : Env} {c : Cfb} {ks : List (List Str)} (h : St E.toCfbLib c ks)
    (hk : gkind "Image".toList ∉ ks) {xs : List ImageData}
    {bs : List Bytes} (he : Encodes ImageData.write xs bs) (hl : xs.length < 2 ^ 32) :
    writeImagesFrom E 0 xs c = .ok (c ++ blockEntries "Image".toList 0 bs) ∧
    St E.toCfbLib (c ++ blockEntries "Image".toList 0 bs) (gkind "Image".toList :: ks) := by
  have := images_aux xs bs 0 c (gkind "Image".toList :: ks) (h.mono fun k hk => List.mem_cons_of_mem _ hk)
    List.mem_cons_self he (by omega) fun j _ => h.fresh (kind_item (by decide) j) hk
  simpa using this

/-- reading a block back -/
theorem readFrom_ok {α : Type} {E : Env} {name : Str} {dec : Bytes → Res α} {c : Cfb} (xs : List α) :
    ∀ (bs : List Bytes) (i : Nat), bs.length = xs.length →
    (∀ (k : Nat) (b : Bytes), bs[k]? = some b → c.get E.toCfbLib (itemPath name (i + k)) = some (.stream b)) →
    (∀ (k : Nat) (b : Bytes), bs[k]? = some b → ∃ x, xs[k]? = some x ∧ dec b = .ok x) →
    readFrom E name dec i xs.length c = .ok xs := by
  induction xs with
  | nil => intro bs i _ _ _; rfl
  | cons x xs ih =>
    intro bs i hl hg hd
    cases bs with
    | nil => simp at hl
    | cons b bs =>
      have e1 : c.openStream E.toCfbLib (itemPath name i) = .ok b := by
        have := hg 0 b (by simp)
        unfold Cfb.openStream
        rw [Nat.add_zero] at this
        rw [this]
      have e2 : dec b = .ok x := by
        obtain ⟨y, hy, hd⟩ := hd 0 b (by simp)
        simp at hy; rw [hy]; exact hd
      have e3 := ih bs (i + 1) (by simpa using hl)
        (fun k b' hk => by
          have := hg (k + 1) b' (by simpa using hk)
          rwa [show i + 1 + k = i + (k + 1) by omega])
        (fun k b' hk => by
          obtain ⟨y, hy, hd⟩ := hd (k + 1) b' (by simpa using hk)
          exact ⟨y, by simpa using hy, hd⟩)
      show (c.openStream E.toCfbLib (itemPath name i) >>= fun d => dec d >>= fun x =>
        readFrom E name dec (i + 1) xs.length c >>= fun xs => pure (x :: xs)) = _
      rw [e1]
      show (dec b >>= _) = _
      rw [e2]
      show (readFrom E name dec (i + 1) xs.length c >>= _) = _
      rw [e3]
      rfl

end Vpin
