import Verif.Lemmas.Inv
/-!
Readers look only at what they consume: `Mono` (they never give data back, and never run out of
fuel) and `Local` (what they return does not depend on the data behind what they consumed).
-/
namespace Vpin

/-- Never runs out of fuel, and never ends before where it started. -/
def Mono {α : Type} (g : R α) : Prop :=
  ∀ r, g r ≠ .error .fuel ∧ ∀ v r', g r = .ok (v, r') → r'.rest.length ≤ r.rest.length

/-- When `g` leaves some data, it consumed a prefix of its input and would do the same in front of
any other (non-empty) data. -/
def Local {α : Type} (g : R α) : Prop :=
  ∀ r v r', g r = .ok (v, r') → r'.rest ≠ [] →
    ∃ a, r.rest = a ++ r'.rest ∧
      ∀ c, c ≠ [] → g { r with rest := a ++ c } = .ok (v, { r' with rest := c })

structure Tame {α : Type} (g : R α) : Prop where
  mono : Mono g
  loc : Local g

theorem Tame.bind {α β : Type} {g : R α} {k : α → R β} (hg : Tame g) (hk : ∀ v, Tame (k v)) :
    Tame (g >>= k) := by
  refine ⟨fun r => ⟨?_, ?_⟩, ?_⟩
  · intro h
    cases hgr : g r with
    | error e =>
      rw [R.bind_err hgr] at h
      cases h
      exact (hg.mono r).1 hgr
    | ok p =>
      rw [R.bind_ok (v := p.1) (r' := p.2) hgr] at h
      exact ((hk p.1).mono p.2).1 h
  · intro v r' h
    obtain ⟨u, r1, h1, h2⟩ := R.bind_inv h
    exact Nat.le_trans (((hk u).mono r1).2 v r' h2) ((hg.mono r).2 u r1 h1)
  · intro r v r' h hne
    obtain ⟨u, r1, h1, h2⟩ := R.bind_inv h
    obtain ⟨a2, e2, f2⟩ := (hk u).loc r1 v r' h2 hne
    have hne1 : r1.rest ≠ [] := by
      rw [e2]; intro h0; exact hne (List.append_eq_nil_iff.1 h0).2
    obtain ⟨a1, e1, f1⟩ := hg.loc r u r1 h1 hne1
    refine ⟨a1 ++ a2, by rw [e1, e2, List.append_assoc], fun c hc => ?_⟩
    have hc' : a2 ++ c ≠ [] := by
      intro h0; exact hc (List.append_eq_nil_iff.1 h0).2
    rw [List.append_assoc, R.bind_ok (f1 (a2 ++ c) hc')]
    exact f2 c hc

theorem Tame.pure {α : Type} (a : α) : Tame (Pure.pure a : R α) := by
  refine ⟨fun r => ⟨fun h => (by cases h), fun v r' h => ?_⟩, fun r v r' h _ => ?_⟩
  · obtain ⟨-, rfl⟩ := R.pure_inv h; exact Nat.le_refl _
  · obtain ⟨rfl, rfl⟩ := R.pure_inv h; exact ⟨[], rfl, fun c _ => rfl⟩

theorem Tame.panic {α : Type} : Tame (R.panic : R α) :=
  ⟨fun r => ⟨fun h => (by cases h), fun v r' h => (by cases h)⟩, fun r v r' h _ => by cases h⟩

theorem Tame.ofRes {α : Type} (x : Res α) : Tame (R.ofRes x) := by
  cases x with
  | ok a => exact Tame.pure a
  | error e => exact Tame.panic

theorem Tame.ite {α : Type} {c : Prop} [Decidable c] {g g' : R α} (h : Tame g) (h' : Tame g') :
    Tame (if c then g else g') := by
  split <;> assumption

theorem Tame.fld {σ α : Type} {g : R α} {set : α → σ → σ} {s : σ} (h : Tame g) :
    Tame (Vpin.fld g set s) := h.bind fun _ => Tame.pure _

theorem drop_take_app {a c : Bytes} {n : Nat} (h : a.length = n) :
    (a ++ c).take n = a ∧ (a ++ c).drop n = c := by subst h; simp

theorem Tame.takeN (n : Nat) : Tame (Vpin.takeN n) := by
  refine ⟨fun r => ⟨?_, ?_⟩, ?_⟩
  · intro h; unfold Vpin.takeN at h; split at h <;> cases h
  · intro v r' h; unfold Vpin.takeN at h; split at h <;> cases h; simp
  · intro r v r' h _
    unfold Vpin.takeN at h
    split at h
    · next hn =>
      cases h
      refine ⟨r.rest.take n, (List.take_append_drop n _).symm, fun c hc => ?_⟩
      have hl : (r.rest.take n).length = n := by simp [hn]
      simp only [Vpin.takeN, (drop_take_app (c := c) hl).1, (drop_take_app (c := c) hl).2]
      rw [if_pos (by simp [hl])]
    · cases h

theorem Tame.subRem (n : Nat) : Tame (Vpin.subRem n) := by
  refine ⟨fun r => ⟨?_, ?_⟩, ?_⟩
  · intro h; unfold Vpin.subRem at h; split at h <;> cases h
  · intro v r' h; unfold Vpin.subRem at h; split at h <;> cases h; simp
  · intro r v r' h _
    unfold Vpin.subRem at h
    split at h
    · next hn =>
      cases h
      refine ⟨[], rfl, fun c hc => ?_⟩
      simp only [Vpin.subRem]
      rw [if_pos hn]; rfl
    · cases h

theorem Tame.takeCut (n : Nat) : Tame (Vpin.takeCut n) := by
  refine ⟨fun r => ⟨?_, ?_⟩, ?_⟩
  · intro h; unfold Vpin.takeCut at h; split at h <;> cases h
  · intro v r' h; unfold Vpin.takeCut at h; split at h <;> cases h; simp
  · intro r v r' h hne
    unfold Vpin.takeCut at h
    split at h
    · cases h
      have hl : (r.rest.take n).length = n := by
        have : r.rest.drop n ≠ [] := hne
        rw [Ne, List.drop_eq_nil_iff] at this
        simp; omega
      refine ⟨r.rest.take n, (List.take_append_drop n _).symm, fun c hc => ?_⟩
      simp only [Vpin.takeCut, (drop_take_app (c := c) hl).1, (drop_take_app (c := c) hl).2]
      rw [if_pos (Or.inl (by simp [hl]))]
    · cases h

theorem Tame.getRecordData : Tame Vpin.getRecordData := by
  refine ⟨fun r => ⟨?_, ?_⟩, ?_⟩
  · intro h; unfold Vpin.getRecordData at h; split at h <;> cases h
  · intro v r' h; unfold Vpin.getRecordData at h; split at h <;> cases h; simp
  · intro r v r' h hne
    unfold Vpin.getRecordData at h
    split at h
    · cases h
    · next hn =>
      cases h
      have hl : (r.rest.take r.brr).length = r.brr := by simp; omega
      refine ⟨r.rest.take r.brr, (List.take_append_drop _ _).symm, fun c hc => ?_⟩
      simp only [Vpin.getRecordData, (drop_take_app (c := c) hl).1, (drop_take_app (c := c) hl).2]
      have : 0 < c.length := List.length_pos_iff.2 hc
      rw [if_neg (by rw [List.length_append, hl]; omega)]

theorem Tame.skipTag : Tame Vpin.skipTag := by
  refine ⟨fun r => ⟨fun h => (by cases h), fun v r' h => ?_⟩, ?_⟩
  · cases h; simp
  · intro r v r' h hne
    cases h
    have hl : (r.rest.take r.brr).length = r.brr := by
      have : r.rest.drop r.brr ≠ [] := hne
      rw [Ne, List.drop_eq_nil_iff] at this
      simp; omega
    refine ⟨r.rest.take r.brr, (List.take_append_drop _ _).symm, fun c hc => ?_⟩
    simp only [Vpin.skipTag, (drop_take_app (c := c) hl).2]

theorem Tame.clearBrr : Tame (modify fun r => { r with brr := 0 } : R PUnit) := by
  refine ⟨fun r => ⟨fun h => (by cases h), fun v r' h => ?_⟩, ?_⟩
  · cases h; simp
  · intro r v r' h hne
    cases h
    exact ⟨[], rfl, fun c hc => rfl⟩

theorem Tame.getN (n : Nat) : Tame (Vpin.getN n) :=
  (Tame.takeN n).bind fun _ => (Tame.subRem n).bind fun _ => Tame.pure _

theorem bool_tame : Tame getBool := (Tame.getN _).bind fun _ => Tame.pure _
theorem u8_tame : Tame getU8 := (Tame.getN _).bind fun _ => Tame.pure _
theorem u16_tame : Tame getU16 := (Tame.getN _).bind fun _ => Tame.pure _
theorem u32_tame : Tame getU32 := (Tame.getN _).bind fun _ => Tame.pure _
theorem i32_tame : Tame getI32 := (Tame.getN _).bind fun _ => Tame.pure _
theorem f32_tame : Tame getF32 := (Tame.getN _).bind fun _ => Tame.pure _
theorem f64_tame : Tame getF64 := (Tame.getN _).bind fun _ => Tame.pure _
theorem u64_tame : Tame getU64 := (Tame.getN _).bind fun _ => Tame.pure _
theorem u8N_tame : Tame getU8N := (Tame.takeN _).bind fun _ => Tame.pure _
theorem u16N_tame : Tame getU16N := (Tame.takeN _).bind fun _ => Tame.pure _
theorem u32N_tame : Tame getU32N := (Tame.takeN _).bind fun _ => Tame.pure _
theorem str_tame (n : Nat) : Tame (getStr n) :=
  (Tame.takeCut _).bind fun _ => (Tame.subRem _).bind fun _ => Tame.pure _
theorem strN_tame (n : Nat) : Tame (getStrN n) := (Tame.takeCut _).bind fun _ => Tame.pure _
theorem strEncN_tame (n : Nat) : Tame (getStrEncN n) := (Tame.takeCut _).bind fun _ => Tame.pure _
theorem string_tame : Tame getString := u32_tame.bind fun _ => str_tame _
theorem stringN_tame : Tame getStringN := u32N_tame.bind fun _ => strN_tame _
theorem wide_tame : Tame getWide :=
  u32_tame.bind fun _ => (Tame.getN _).bind fun _ => Tame.ofRes _
theorem data_tame : Tame getRecordData := Tame.getRecordData
theorem dataN_tame : Tame getDataN :=
  u32N_tame.bind fun _ => (Tame.takeN _).bind fun _ => Tame.clearBrr.bind fun _ => Tame.pure _
theorem getData_tame (n : Nat) : Tame (getData n) :=
  (Tame.takeN _).bind fun _ => Tame.clearBrr.bind fun _ => Tame.pure _
theorem vertex2d_tame : Tame getVertex2D :=
  f32_tame.bind fun _ => f32_tame.bind fun _ => Tame.pure _
theorem vertex3du_tame : Tame getVertex3DUnpadded :=
  f32_tame.bind fun _ => f32_tame.bind fun _ => f32_tame.bind fun _ => Tame.pure _
theorem vertex3d_tame : Tame getVertex3D :=
  f32_tame.bind fun _ => f32_tame.bind fun _ => f32_tame.bind fun _ => f32_tame.bind fun _ =>
    Tame.pure _
theorem color_tame : Tame getColor :=
  u8_tame.bind fun _ => u8_tame.bind fun _ => u8_tame.bind fun _ => u8_tame.bind fun _ =>
    Tame.pure _
theorem enum_tame {α : Type} {f : UInt32 → Res α} : Tame (getEnum f) :=
  u32_tame.bind fun _ => Tame.ofRes _
theorem quant8_tame : Tame getQuant8 := u32_tame.bind fun _ => Tame.pure _
theorem code_tame : Tame getCode := u32N_tame.bind fun _ => strEncN_tame _

theorem font_tame : Tame getFont := by
  refine u8N_tame.bind fun v => ?_
  have key : Tame (do
      let charset ← getU16N
      let style ← getU8N
      let weight ← getU16N
      let size ← getU32N
      let name_len ← getU8N
      let name ← getStrN name_len.toNat
      return ({ charset, style := FontStyles.ofFlags style, weight, size, name } : Font)) :=
    u16N_tame.bind fun _ => u8N_tame.bind fun _ => u16N_tame.bind fun _ => u32N_tame.bind fun _ =>
      u8N_tame.bind fun _ => (strN_tame _).bind fun _ => Tame.pure _
  by_cases hv : v ≠ 1
  · simp only; rw [if_pos hv]; exact Tame.panic.bind fun _ => key
  · simp only; rw [if_neg hv]; exact key

/-! ### The record loop -/

theorem next_mono {r r' : Rd} {u : Unit} (h : next r = .ok (u, r')) :
    r'.rest.length < r.rest.length ∧ r'.warn = r.warn := by
  unfold next at h
  simp only at h
  split at h
  · cases h
  · next h1 =>
    split at h
    · cases h
    · split at h
      · cases h
      · split at h
        · cases h
        · split at h
          · cases h
          · cases h
            simp only [List.length_drop] at h1 ⊢
            exact ⟨by omega, trivial⟩

theorem next_no_fuel (r : Rd) : next r ≠ .error .fuel := by
  intro h
  unfold next at h
  simp only at h
  repeat' split at h
  all_goals cases h

/-- `next` depends only on the data behind the current record and on `warn`. -/
theorem next_congr {r r' : Rd} (h : r.rest.drop r.brr = r'.rest.drop r'.brr)
    (hw : r.warn = r'.warn) : next r = next r' := by
  unfold next
  rw [h, hw]

theorem next_local : Local next := by
  intro r v r' h hne
  have h0 := h
  unfold next at h
  simp only at h
  split at h
  · cases h
  · next h1 =>
    split at h
    · cases h
    · next h2 =>
      split at h
      · cases h
      · next h3 =>
        split at h
        · cases h
        · next h4 =>
          split at h
          · cases h
          · next h5 =>
            cases h
            have hlen : r.brr + 8 < r.rest.length := by
              have : ((r.rest.drop r.brr).drop 4).drop 4 ≠ [] := hne
              rw [Ne, List.drop_drop, List.drop_drop, List.drop_eq_nil_iff] at this
              omega
            have hl : (r.rest.take (r.brr + 8)).length = r.brr + 8 := by simp; omega
            have e : ((r.rest.drop r.brr).drop 4).drop 4 = r.rest.drop (r.brr + 8) := by
              rw [List.drop_drop, List.drop_drop]
            refine ⟨r.rest.take (r.brr + 8), ?_, fun c hc => ?_⟩
            · simp only [e]; exact (List.take_append_drop _ _).symm
            · have d0 : (r.rest.take (r.brr + 8) ++ c).drop r.brr
                  = (r.rest.drop r.brr).take 8 ++ c := by
                rw [List.drop_append_of_le_length (by omega), List.drop_take]
                congr 2; omega
              have hl8 : ((r.rest.drop r.brr).take 8).length = 8 := by simp; omega
              have d1 : ((r.rest.drop r.brr).take 8 ++ c).take 4 = (r.rest.drop r.brr).take 4 := by
                rw [List.take_append_of_le_length (by omega), List.take_take]; rfl
              have d2 : ((r.rest.drop r.brr).take 8 ++ c).drop 4
                  = ((r.rest.drop r.brr).drop 4).take 4 ++ c := by
                rw [List.drop_append_of_le_length (by omega), List.drop_take]
              have hl4 : (((r.rest.drop r.brr).drop 4).take 4).length = 4 := by simp; omega
              unfold next
              simp only [d0, d1, d2, (drop_take_app (c := c) hl4).1,
                (drop_take_app (c := c) hl4).2]
              have hce : c.isEmpty = false := by cases c <;> simp at hc ⊢
              have hre : (((r.rest.drop r.brr).drop 4).drop 4).isEmpty = false := by
                have : ((r.rest.drop r.brr).drop 4).drop 4 ≠ [] := hne
                exact Bool.eq_false_iff.2 fun hx => this (List.isEmpty_iff.1 hx)
              rw [if_neg (by simp only [List.length_append, hl8]; omega),
                if_neg (by simp only [List.length_append, hl4]; omega),
                if_neg h3, if_neg h4]
              rw [hre] at h5
              rw [hce, if_neg h5]

/-- All arms are tame. -/
def ArmsTame {σ : Type} (hs : Handlers σ) : Prop := ∀ x ∈ hs, ∀ s, Tame (x.2 s)

theorem ArmsTame.nil {σ : Type} : ArmsTame ([] : Handlers σ) := fun _ h => by cases h

theorem ArmsTame.cons {σ : Type} {t : Tag} {f : σ → R σ} {hs : Handlers σ}
    (h : ∀ s, Tame (f s)) (hs' : ArmsTame hs) : ArmsTame ((t, f) :: hs) := by
  intro x hx
  rcases List.mem_cons.1 hx with rfl | hx
  · exact h
  · exact hs' x hx

theorem ArmsTame.append {σ : Type} {a b : Handlers σ}
    (ha : ArmsTame a) (hb : ArmsTame b) : ArmsTame (a ++ b) := by
  intro x hx
  rcases List.mem_append.1 hx with hx | hx
  · exact ha x hx
  · exact hb x hx

theorem dispatch_tame {σ : Type} {hs : Handlers σ} (h : ArmsTame hs) (t : Tag) (s : σ) :
    Tame (dispatch hs t s) := by
  cases hl : hs.lookup t with
  | some f => rw [dispatch_some hl]; exact h _ (lookup_mem hl) s
  | none =>
    cases h0 : hs.lookup anyTag with
    | some f => rw [dispatch_default hl h0]; exact h _ (lookup_mem h0) s
    | none =>
      have : dispatch hs t s = (do skipTag; Pure.pure s : R σ) := by
        unfold dispatch; rw [hl, h0]
      rw [this]
      exact Tame.skipTag.bind fun _ => Tame.pure _

/-- The loop never runs out of fuel when it has more than the number of bytes left, and the
amount then does not matter. -/
theorem loop_fuelM {σ : Type} {h : Tag → σ → R σ} (hh : ∀ t s, Mono (h t s)) (f : Nat) :
    ∀ f' s r, r.rest.length < f → r.rest.length < f' →
      loop h f s r = loop h f' s r ∧ loop h f s r ≠ .error .fuel := by
  induction f with
  | zero => intro f' s r h1; omega
  | succ f ih =>
    intro f' s r h1 h2
    cases f' with
    | zero => omega
    | succ f' =>
      unfold loop
      cases hn : next r with
      | error e =>
        refine ⟨rfl, fun h => ?_⟩
        cases h; exact next_no_fuel r hn
      | ok p =>
        have hm := (next_mono (u := p.1) (r' := p.2) hn).1
        simp only
        split
        · exact ⟨rfl, fun h => by cases h⟩
        · cases hd : h p.2.tag s p.2 with
          | error e =>
            refine ⟨rfl, fun hx => ?_⟩
            cases hx; exact (hh p.2.tag s p.2).1 hd
          | ok q =>
            have hm2 := (hh p.2.tag s p.2).2 q.1 q.2 hd
            exact ih f' q.1 q.2 (by omega) (by omega)

theorem loop_fuel {σ : Type} {h : Tag → σ → R σ} (hh : ∀ t s, Tame (h t s)) (f : Nat) :
    ∀ f' s r, r.rest.length < f → r.rest.length < f' →
      loop h f s r = loop h f' s r ∧ loop h f s r ≠ .error .fuel :=
  loop_fuelM (fun t s => (hh t s).mono) f

theorem loop_mono {σ : Type} {h : Tag → σ → R σ} (hh : ∀ t s, Tame (h t s)) (f : Nat) :
    ∀ s r s' r', loop h f s r = .ok (s', r') → r'.rest.length ≤ r.rest.length := by
  induction f with
  | zero => intro s r s' r' h; cases h
  | succ f ih =>
    intro s r s' r' hl
    unfold loop at hl
    split at hl
    · cases hl
    · next u r1 hn =>
      have hm := (next_mono hn).1
      split at hl
      · cases hl; omega
      · split at hl
        · cases hl
        · next s1 r2 hd =>
          have := ih s1 r2 s' r' hl
          have := ((hh r1.tag s).mono r1).2 s1 r2 hd
          omega

theorem isEof_rest {r : Rd} {c c' : Bytes} (h : c ≠ []) (h' : c' ≠ []) :
    Rd.isEof { r with rest := c } = Rd.isEof { r with rest := c' } := by
  cases c with
  | nil => exact absurd rfl h
  | cons => cases c' with
    | nil => exact absurd rfl h'
    | cons => rfl

theorem loop_local {σ : Type} {h : Tag → σ → R σ} (hh : ∀ t s, Tame (h t s)) (f : Nat) :
    ∀ s r s' r', loop h f s r = .ok (s', r') → r'.rest ≠ [] →
      ∃ a, r.rest = a ++ r'.rest ∧ ∀ c, c ≠ [] → ∀ f', (a ++ c).length < f' →
        loop h f' s { r with rest := a ++ c } = .ok (s', { r' with rest := c }) := by
  induction f with
  | zero => intro s r s' r' h; cases h
  | succ f ih =>
    intro s r s' r' hl hne
    unfold loop at hl
    split at hl
    · cases hl
    · next u r1 hn =>
      split at hl
      · next heof =>
        cases hl
        obtain ⟨a, e, fa⟩ := next_local r u _ hn hne
        refine ⟨a, e, fun c hc f' hf => ?_⟩
        cases f' with
        | zero => omega
        | succ f' =>
          unfold loop
          rw [fa c hc]
          simp only
          rw [isEof_rest hc hne, if_pos heof]
      · next heof =>
        split at hl
        · cases hl
        · next s1 r2 hd =>
          obtain ⟨a3, e3, f3⟩ := ih s1 r2 s' r' hl hne
          have hne2 : r2.rest ≠ [] := by
            rw [e3]; intro h0; exact hne (List.append_eq_nil_iff.1 h0).2
          obtain ⟨a2, e2, f2⟩ := (hh r1.tag s).loc r1 s1 r2 hd hne2
          have hne1 : r1.rest ≠ [] := by
            rw [e2]; intro h0; exact hne2 (List.append_eq_nil_iff.1 h0).2
          obtain ⟨a1, e1, f1⟩ := next_local r u r1 hn hne1
          refine ⟨a1 ++ (a2 ++ a3), by rw [e1, e2, e3]; simp, fun c hc f' hf => ?_⟩
          have hc3 : a3 ++ c ≠ [] := fun h0 => hc (List.append_eq_nil_iff.1 h0).2
          have hc2 : a2 ++ (a3 ++ c) ≠ [] := fun h0 => hc3 (List.append_eq_nil_iff.1 h0).2
          have hstrict := (next_mono (f1 (a2 ++ (a3 ++ c)) hc2)).1
          cases f' with
          | zero => omega
          | succ f' =>
            unfold loop
            simp only [List.append_assoc]
            rw [f1 _ hc2]
            simp only
            rw [isEof_rest hc2 hne1, if_neg heof, f2 _ hc3]
            simp only
            refine f3 c hc f' ?_
            simp only [List.length_append] at hf hstrict ⊢
            omega

theorem readWith_tame {σ : Type} {hs : Handlers σ} (h : ArmsTame hs) (s : σ) :
    Tame (readWith hs s) := by
  have hh := dispatch_tame h
  refine ⟨fun r => ⟨(loop_fuel hh _ (r.rest.length + 1) s r (by omega) (by omega)).2,
    fun v r' hl => loop_mono hh _ s r v r' hl⟩, fun r v r' hl hne => ?_⟩
  obtain ⟨a, e, f⟩ := loop_local hh _ s r v r' hl hne
  exact ⟨a, e, fun c hc => f c hc _ (by simp)⟩

theorem getChild_tame {σ : Type} {g : R σ} (h : Tame g) : Tame (getChild g) := by
  refine ⟨fun r => ⟨?_, ?_⟩, ?_⟩
  · intro hx
    unfold getChild at hx
    split at hx
    · next e he => cases hx; exact (h.mono r.child).1 he
    · cases hx
  · intro v r' hx
    unfold getChild at hx
    split at hx
    · cases hx
    · next v1 r1 he => cases hx; exact (h.mono r.child).2 _ r1 he
  · intro r v r' hx hne
    unfold getChild at hx
    split at hx
    · cases hx
    · next v1 r1 he =>
      cases hx
      obtain ⟨a, e, f⟩ := h.loc r.child v r1 he hne
      refine ⟨a, e, fun c hc => ?_⟩
      have := f c hc
      unfold getChild
      simp only [Rd.child] at this ⊢
      rw [this]

theorem timerArms_tame {σ : Type} (L : Lens σ TimerData) : ArmsTame (timerArms L) :=
  .cons (fun _ => bool_tame.fld) <| .cons (fun _ => i32_tame.fld) .nil

theorem sharedArms_tame {σ : Type} (L : Lens σ SharedAttrs) : ArmsTame (sharedArms L) :=
  .cons (fun _ => bool_tame.fld) <| .cons (fun _ => u32_tame.fld) <|
  .cons (fun _ => string_tame.fld) <| .cons (fun _ => bool_tame.fld) <|
  .cons (fun _ => string_tame.fld) .nil

end Vpin
