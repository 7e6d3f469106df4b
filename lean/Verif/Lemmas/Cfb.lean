import Verif.Model.Vpx
/-!
Facts about compound files as finite maps.
-/
namespace Vpin
variable {L : CfbLib}

theorem Cfb.get_root (c : Cfb) : c.get L [] = some .storage := by simp [Cfb.get]

theorem key_ne_nil {p : Path} (h : p ≠ []) : L.key p ≠ [] := by
  intro h'
  cases p with
  | nil => exact h rfl
  | cons a b => simp [CfbLib.key] at h'

theorem Cfb.get_nil {p : Path} (h : p ≠ []) : Cfb.get L [] p = none := by simp [Cfb.get, h]

theorem Cfb.get_cons {p q : Path} {e : Entry} {c : Cfb} (h : p ≠ []) :
    Cfb.get L ((q, e) :: c) p = if L.key q = L.key p then some e else c.get L p := by
  unfold Cfb.get
  simp only [h, if_false, List.find?_cons]
  by_cases hk : L.key q = L.key p
  · simp [hk]
  · have : (L.key q == L.key p) = false := by simpa using hk
    rw [this, if_neg hk]

theorem Cfb.get_append {p : Path} (h : p ≠ []) (a b : Cfb) :
    Cfb.get L (a ++ b) p = (a.get L p).or (b.get L p) := by
  unfold Cfb.get
  simp only [h, if_false, List.find?_append]
  cases List.find? (fun e => L.key e.1 == L.key p) a <;> simp

theorem Cfb.get_append_none {p : Path} {a b : Cfb} (h : a.get L p = none) :
    Cfb.get L (a ++ b) p = b.get L p := by
  have hp : p ≠ [] := by
    rintro rfl
    rw [Cfb.get_root] at h; cases h
  rw [Cfb.get_append hp, h]; rfl

theorem Cfb.get_append_some {p : Path} {a b : Cfb} {e : Entry} (h : a.get L p = some e) :
    Cfb.get L (a ++ b) p = some e := by
  by_cases hp : p = []
  · subst hp; rw [Cfb.get_root] at h ⊢; exact h
  · rw [Cfb.get_append hp, h]; rfl

/-- the same path in another spelling -/
theorem Cfb.get_congr {p q : Path} (h : L.key p = L.key q) (c : Cfb) : c.get L p = c.get L q := by
  have hpq : p = [] ↔ q = [] := by
    constructor
    · rintro rfl
      cases q with
      | nil => rfl
      | cons a b => simp [CfbLib.key] at h
    · rintro rfl
      cases p with
      | nil => rfl
      | cons a b => simp [CfbLib.key] at h
  unfold Cfb.get
  simp only [hpq, h]

theorem Cfb.get_append_one {p q : Path} {e : Entry} {c : Cfb} (h : c.get L p = none) :
    Cfb.get L (c ++ [(p, e)]) q = if L.key q = L.key p then some e else c.get L q := by
  have hp : p ≠ [] := by
    rintro rfl
    rw [Cfb.get_root] at h; cases h
  by_cases hk : L.key q = L.key p
  · rw [if_pos hk, Cfb.get_congr hk, Cfb.get_append_none h, Cfb.get_cons hp, if_pos rfl]
  · rw [if_neg hk]
    by_cases hq : q = []
    · subst hq; rw [Cfb.get_root, Cfb.get_root]
    · rw [Cfb.get_append hq, Cfb.get_cons hq, if_neg (Ne.symm hk), Cfb.get_nil hq]
      cases c.get L q <;> rfl

/-- replacing the content of a stream -/
theorem Cfb.get_replace {p q : Path} {bs : Bytes} (hp : p ≠ []) (c : Cfb) (h : c.get L p ≠ none) :
    Cfb.get L (c.map fun e => if L.key e.1 = L.key p then (e.1, .stream bs) else e) q =
      if L.key q = L.key p then some (.stream bs) else c.get L q := by
  by_cases hq : q = []
  · subst hq
    rw [Cfb.get_root, Cfb.get_root, if_neg]
    intro h'; exact key_ne_nil hp h'.symm
  · by_cases hk : L.key q = L.key p
    · rw [if_pos hk]
      rw [← Cfb.get_congr hk] at h
      induction c with
      | nil => exact absurd (Cfb.get_nil hq) h
      | cons x xs ih =>
        obtain ⟨x1, x2⟩ := x
        rw [Cfb.get_cons hq] at h
        simp only [List.map_cons]
        by_cases hx : L.key x1 = L.key p
        · rw [if_pos hx, Cfb.get_cons hq, if_pos (hx.trans hk.symm)]
        · rw [if_neg hx, Cfb.get_cons hq, if_neg (fun h' => hx (h'.trans hk))]
          rw [if_neg (fun h' => hx (h'.trans hk))] at h
          exact ih h
    · rw [if_neg hk]
      clear h
      induction c with
      | nil => rfl
      | cons x xs ih =>
        obtain ⟨x1, x2⟩ := x
        simp only [List.map_cons]
        by_cases hx : L.key x1 = L.key p
        · rw [if_pos hx, Cfb.get_cons hq, Cfb.get_cons hq, if_neg, if_neg, ih]
          · intro h'; exact hk (h'.symm.trans hx)
          · intro h'; exact hk (h'.symm.trans hx)
        · rw [if_neg hx, Cfb.get_cons hq, Cfb.get_cons hq, ih]

theorem Cfb.add_inv {c c' : Cfb} {p : Path} {e : Entry} (h : c.add L p e = .ok c') :
    p ≠ [] ∧ c' = c ++ [(p, e)] ∧ c.get L p.dropLast = some .storage := by
  unfold Cfb.add at h
  split at h
  · cases h
  · next name hn =>
    split at h
    · next hc =>
      cases h
      refine ⟨?_, rfl, hc.1⟩
      rintro rfl
      cases hn
    · cases h

/-- **what `create_stream` does**: the stream has the new content, everything else is as before -/
theorem Cfb.get_createStream {c c' : Cfb} {p : Path} {bs : Bytes} (h : c.createStream L p bs = .ok c')
    (q : Path) : c'.get L q = if L.key q = L.key p then some (.stream bs) else c.get L q := by
  unfold Cfb.createStream at h
  split at h
  · cases h
  · next old ho =>
    cases h
    refine Cfb.get_replace ?_ c (by rw [ho]; simp)
    rintro rfl
    rw [Cfb.get_root] at ho; cases ho
  · next hn =>
    obtain ⟨-, rfl, -⟩ := Cfb.add_inv h
    exact Cfb.get_append_one hn

theorem Cfb.createStream_fresh {c : Cfb} {d : Path} {n : Str} (bs : Bytes)
    (h : c.get L (d ++ [n]) = none) (hd : c.get L d = some .storage) (hn : validName n = true) :
    c.createStream L (d ++ [n]) bs = .ok (c ++ [(d ++ [n], .stream bs)]) := by
  unfold Cfb.createStream
  rw [h]
  simp only [Cfb.add, List.getLast?_append, List.dropLast_concat]
  simp [hd, hn]

theorem Cfb.createNewStream_fresh {c : Cfb} {d : Path} {n : Str} (bs : Bytes)
    (h : c.get L (d ++ [n]) = none) (hd : c.get L d = some .storage) (hn : validName n = true) :
    c.createNewStream L (d ++ [n]) bs = .ok (c ++ [(d ++ [n], .stream bs)]) := by
  unfold Cfb.createNewStream
  rw [h]
  simp only [Cfb.add, List.getLast?_append, List.dropLast_concat]
  simp [hd, hn]

theorem Cfb.createStorage_fresh {c : Cfb} {d : Path} {n : Str}
    (h : c.get L (d ++ [n]) = none) (hd : c.get L d = some .storage) (hn : validName n = true) :
    c.createStorage L (d ++ [n]) = .ok (c ++ [(d ++ [n], .storage)]) := by
  unfold Cfb.createStorage
  rw [h]
  simp only [Cfb.add, List.getLast?_append, List.dropLast_concat]
  simp [hd, hn]

theorem Cfb.createStream_replace {c : Cfb} {p : Path} {old : Bytes} (bs : Bytes)
    (h : c.get L p = some (.stream old)) :
    ∃ c', c.createStream L p bs = .ok c' := by
  unfold Cfb.createStream
  rw [h]
  exact ⟨_, rfl⟩

/-! ### numbers in names -/

def digitsVal (s : Str) : Nat := s.foldl (fun acc c => 10 * acc + (c.toNat - 0x30)) 0

theorem digitsVal_concat (s : Str) (c : Char) : digitsVal (s ++ [c]) = 10 * digitsVal s + (c.toNat - 0x30) := by
  simp [digitsVal, List.foldl_append]

theorem digitChar {n : Nat} (h : n < 10) : (Char.ofNat (0x30 + n)).toNat = 0x30 + n := by
  have : n = 0 ∨ n = 1 ∨ n = 2 ∨ n = 3 ∨ n = 4 ∨ n = 5 ∨ n = 6 ∨ n = 7 ∨ n = 8 ∨ n = 9 := by omega
  rcases this with rfl | rfl | rfl | rfl | rfl | rfl | rfl | rfl | rfl | rfl <;> decide

theorem digitsVal_decimalF (f : Nat) : ∀ n, n < f → digitsVal (decimalF f n) = n := by
  induction f with
  | zero => intro n h; omega
  | succ f ih =>
    intro n h
    unfold decimalF
    split
    · next h10 =>
      have := digitChar h10
      simp [digitsVal, this]
    · rw [digitsVal_concat, ih _ (by omega), digitChar (Nat.mod_lt _ (by omega))]
      omega

theorem decimal_inj {a b : Nat} (h : decimal a = decimal b) : a = b := by
  have h1 := digitsVal_decimalF (a + 1) a (by omega)
  have h2 := digitsVal_decimalF (b + 1) b (by omega)
  unfold decimal at h
  rw [← h1, ← h2, h]

theorem decimalF_digits (f : Nat) : ∀ n, ∀ c ∈ decimalF f n, 0x30 ≤ c.toNat ∧ c.toNat ≤ 0x39 := by
  induction f with
  | zero => intro n c h; cases h
  | succ f ih =>
    intro n c h
    unfold decimalF at h
    split at h
    · next h10 =>
      simp only [List.mem_singleton] at h
      subst h
      rw [digitChar h10]; omega
    · rcases List.mem_append.1 h with h | h
      · exact ih _ _ h
      · simp only [List.mem_singleton] at h
        subst h
        have := Nat.mod_lt n (show 0 < 10 by omega)
        rw [digitChar this]; omega

theorem decimalF_length (f : Nat) : ∀ n k, n < f → n < 10 ^ (k + 1) → (decimalF f n).length ≤ k + 1 := by
  induction f with
  | zero => intro n k h; omega
  | succ f ih =>
    intro n k h hk
    unfold decimalF
    split
    · simp
    · next h10 =>
      cases k with
      | zero => omega
      | succ k =>
        have := ih (n / 10) k (by omega) (by rw [Nat.div_lt_iff_lt_mul (by omega)]; rw [Nat.pow_succ] at hk; exact hk)
        simp only [List.length_append, List.length_singleton]
        omega

/-! ### names of the streams -/

def notDigit (c : Char) : Bool := !(decide (0x30 ≤ c.toNat) && decide (c.toNat ≤ 0x39))

/-- a sort of a path: its folded names up to the first digit -/
def CfbLib.kind (L : CfbLib) (p : Path) : Path := (L.key p).map (·.takeWhile notDigit)

theorem kind_of_key {p q : Path} (h : L.key p = L.key q) : L.kind p = L.kind q := by
  unfold CfbLib.kind; rw [h]

def IsAscii (s : Str) : Prop := ∀ c ∈ s, c.toNat < 128

instance (s : Str) : Decidable (IsAscii s) := inferInstanceAs (Decidable (∀ c ∈ s, c.toNat < 128))

theorem decimal_ascii (n : Nat) : IsAscii (decimal n) := fun c h => by
  have := decimalF_digits _ _ c h; omega

theorem fold_append {a b : Str} (ha : IsAscii a) (hb : IsAscii b) :
    L.fold (a ++ b) = a.map asciiUpper ++ b.map asciiUpper := by
  rw [L.fold_ascii, List.map_append]
  intro c h
  rcases List.mem_append.1 h with h | h
  · exact ha c h
  · exact hb c h

theorem asciiUpper_digit {c : Char} (h : 0x30 ≤ c.toNat ∧ c.toNat ≤ 0x39) : asciiUpper c = c := by
  unfold asciiUpper
  rw [if_neg]
  rintro ⟨h1, -⟩
  have : (0x61 : Nat) ≤ c.toNat := h1
  omega

theorem decimal_upper (n : Nat) : (decimal n).map asciiUpper = decimal n := by
  have := List.map_congr_left (f := asciiUpper) (g := id) (l := decimal n)
    fun c h => asciiUpper_digit (decimalF_digits _ _ c h)
  rw [this, List.map_id]

/-- a stem: ASCII and without digits in upper case -/
def Stem (s : Str) : Prop := IsAscii s ∧ (s.map asciiUpper).all notDigit = true

instance (s : Str) : Decidable (Stem s) := inferInstanceAs (Decidable (_ ∧ _))

theorem takeWhile_all {α : Type} {p : α → Bool} {a b : List α} (ha : a.all p = true)
    (hb : ∀ x ∈ b, p x = false) : (a ++ b).takeWhile p = a := by
  induction a with
  | nil =>
    cases b with
    | nil => rfl
    | cons x xs => simp [hb x (by simp)]
  | cons x xs ih =>
    simp only [List.all_cons, Bool.and_eq_true] at ha
    simp [ha.1, ih ha.2]

theorem kind_name {s : Str} (h : Stem s) (n : Nat) :
    (L.fold (s ++ decimal n)).takeWhile notDigit = s.map asciiUpper := by
  rw [fold_append h.1 (decimal_ascii n), decimal_upper]
  refine takeWhile_all h.2 ?_
  intro c hc
  have := decimalF_digits _ _ c hc
  simp [notDigit, this]

theorem kind_plain {s : Str} (h : Stem s) : (L.fold s).takeWhile notDigit = s.map asciiUpper := by
  rw [L.fold_ascii _ h.1]
  have := takeWhile_all (b := []) h.2 (by simp)
  simpa using this

theorem gameStg_stem : Stem gameStg := by decide
theorem infoStg_stem : Stem infoStg := by decide

theorem kind_item {s : Str} (h : Stem s) (n : Nat) :
    L.kind (itemPath s n) = [gameStg.map asciiUpper, s.map asciiUpper] := by
  simp [CfbLib.kind, CfbLib.key, itemPath, gamePath, kind_name h, kind_plain gameStg_stem]

theorem kind_game {s : Str} (h : Stem s) :
    L.kind (gamePath s) = [gameStg.map asciiUpper, s.map asciiUpper] := by
  simp [CfbLib.kind, CfbLib.key, gamePath, kind_plain h, kind_plain gameStg_stem]

theorem kind_info (s : Str) :
    L.kind [infoStg, s] = [infoStg.map asciiUpper, (L.fold s).takeWhile notDigit] := by
  simp [CfbLib.kind, CfbLib.key, kind_plain infoStg_stem]

theorem kind_stg : L.kind [gameStg] = [gameStg.map asciiUpper] := by
  simp [CfbLib.kind, CfbLib.key, kind_plain gameStg_stem]

theorem kind_infoStg : L.kind [infoStg] = [infoStg.map asciiUpper] := by
  simp [CfbLib.kind, CfbLib.key, kind_plain infoStg_stem]

theorem key_item_inj {s : Str} (h : IsAscii s) {a b : Nat} (he : L.key (itemPath s a) = L.key (itemPath s b)) :
    a = b := by
  simp only [CfbLib.key, itemPath, gamePath, List.map_cons, List.map_nil, List.cons.injEq, and_true,
    true_and] at he
  rw [fold_append h (decimal_ascii _), fold_append h (decimal_ascii _), decimal_upper, decimal_upper] at he
  exact decimal_inj (List.append_cancel_left he)

theorem get_none_of_kind {c : Cfb} {p : Path} (hp : p ≠ []) (h : ∀ e ∈ c, L.kind e.1 ≠ L.kind p) :
    c.get L p = none := by
  induction c with
  | nil => exact Cfb.get_nil hp
  | cons x xs ih =>
    obtain ⟨x1, x2⟩ := x
    rw [Cfb.get_cons hp, if_neg]
    · exact ih fun e he => h e (List.mem_cons_of_mem _ he)
    · intro hk
      exact h (x1, x2) (by simp) (kind_of_key hk)

theorem utf16_ascii {s : Str} (h : IsAscii s) : (encodeUtf16 s).length = s.length := by
  induction s with
  | nil => rfl
  | cons c cs ih =>
    have hc : c.toNat < 128 := h c (by simp)
    have : utf16Units c = [UInt16.ofNat c.toNat] := by
      unfold utf16Units
      rw [if_pos (by omega)]
    simp only [encodeUtf16, List.flatMap_cons, this, List.length_append, List.length_cons,
      List.length_nil] at ih ⊢
    have := ih fun c' h' => h c' (List.mem_cons_of_mem _ h')
    omega

def CleanName (s : Str) : Prop :=
  s ≠ [] ∧ IsAscii s ∧ s.length ≤ 21 ∧ (s.all fun c => !['/', '\\', ':', '!'].contains c) = true

instance (s : Str) : Decidable (CleanName s) := inferInstanceAs (Decidable (_ ∧ _ ∧ _ ∧ _))

theorem validName_item {s : Str} (h : CleanName s) {n : Nat} (hn : n < 2 ^ 32) :
    validName (s ++ decimal n) = true := by
  obtain ⟨h1, h2, h3, h4⟩ := h
  have hl : (decimal n).length ≤ 10 := decimalF_length _ n 9 (by omega) (by omega)
  have hu : (encodeUtf16 (s ++ decimal n)).length ≤ 31 := by
    rw [utf16_ascii]
    · simp only [List.length_append]; omega
    · intro c hc
      rcases List.mem_append.1 hc with hc | hc
      · exact h2 c hc
      · exact decimal_ascii n c hc
  have hd : ((decimal n).all fun c => !['/', '\\', ':', '!'].contains c) = true := by
    rw [List.all_eq_true]
    intro c hc
    have hd := decimalF_digits _ _ c hc
    have e1 : c ≠ '/' := by rintro rfl; exact absurd hd (by decide)
    have e2 : c ≠ '\\' := by rintro rfl; exact absurd hd (by decide)
    have e3 : c ≠ ':' := by rintro rfl; exact absurd hd (by decide)
    have e4 : c ≠ '!' := by rintro rfl; exact absurd hd (by decide)
    simp [e1, e2, e3, e4]
  have hs : (s ++ decimal n).isEmpty = false := by
    cases s with
    | nil => exact absurd rfl h1
    | cons a b => rfl
  unfold validName
  rw [hs, List.all_append, h4, hd]
  simp [hu]

end Vpin
