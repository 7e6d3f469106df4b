import Verif.Lemmas.Fields
/-!
What every reader guarantees about the values it returns, whatever the input.
-/
namespace Vpin

/-- Inside a record of a 32 bit size, every value `g` returns satisfies `P`. -/
def GP {α : Type} (g : R α) (P : α → Prop) : Prop :=
  ∀ r v r', r.brr + 4 < 2 ^ 32 → g r = .ok (v, r') → P v

theorem GP.any {α : Type} {g : R α} : GP g Any := fun _ _ _ _ _ => trivial

/-- What a successful `bind` did. -/
theorem R.bind_inv {α β : Type} {g : R α} {k : α → R β} {r r' : Rd} {u : β}
    (h : (g >>= k) r = .ok (u, r')) : ∃ v r1, g r = .ok (v, r1) ∧ k v r1 = .ok (u, r') := by
  cases hg : g r with
  | error e => rw [R.bind_err hg] at h; cases h
  | ok p => exact ⟨p.1, p.2, rfl, by rw [R.bind_ok (v := p.1) (r' := p.2) hg] at h; exact h⟩

theorem R.pure_inv {α : Type} {a v : α} {r r' : Rd} (h : (Pure.pure a : R α) r = .ok (v, r')) :
    v = a ∧ r' = r := by
  cases h; exact ⟨rfl, rfl⟩

theorem R.ofRes_inv {α : Type} {x : Res α} {v : α} {r r' : Rd} (h : R.ofRes x r = .ok (v, r')) :
    x = .ok v ∧ r' = r := by
  cases x with
  | error e => cases h
  | ok a => obtain ⟨rfl, rfl⟩ := R.pure_inv h; exact ⟨rfl, rfl⟩

theorem takeN_inv {n : Nat} {r r' : Rd} {d : Bytes} (h : takeN n r = .ok (d, r')) :
    d.length = n ∧ r'.brr = r.brr := by
  unfold takeN at h
  split at h
  · next hn => cases h; simp [hn]
  · cases h

theorem subRem_inv {n : Nat} {r r' : Rd} {u : Unit} (h : subRem n r = .ok (u, r')) :
    n ≤ r.brr ∧ r'.brr = r.brr - n := by
  unfold subRem at h
  split at h
  · next hn => cases h; exact ⟨hn, rfl⟩
  · cases h

theorem getN_inv {n : Nat} {r r' : Rd} {d : Bytes} (h : getN n r = .ok (d, r')) :
    d.length = n ∧ n ≤ r.brr ∧ r'.brr = r.brr - n := by
  obtain ⟨d1, r1, h1, h2⟩ := R.bind_inv h
  obtain ⟨u, r2, h3, h4⟩ := R.bind_inv h2
  obtain ⟨rfl, rfl⟩ := R.pure_inv h4
  have a := takeN_inv h1
  have b := subRem_inv h3
  omega

theorem getU32_inv {r r' : Rd} {v : UInt32} (h : getU32 r = .ok (v, r')) :
    4 ≤ r.brr ∧ r'.brr = r.brr - 4 := by
  obtain ⟨d1, r1, h1, h2⟩ := R.bind_inv h
  obtain ⟨_, rfl⟩ := R.pure_inv h2
  exact (getN_inv h1).2

theorem takeCut_inv {n : Nat} {r r' : Rd} {d : Bytes} (h : takeCut n r = .ok (d, r')) :
    d.length ≤ n ∧ 0 ∉ d ∧ r'.brr = r.brr := by
  unfold takeCut at h
  split at h
  · cases h
    refine ⟨?_, cutNul_zero_not_mem _, rfl⟩
    have : ∀ l : Bytes, (cutNul l).length ≤ l.length := by
      intro l
      induction l with
      | nil => simp [cutNul]
      | cons b l ih =>
        by_cases hb : b = 0
        · simp [cutNul, hb]
        · simp [cutNul, hb]; exact ih
    exact Nat.le_trans (this _) (by simp; omega)
  · cases h

theorem isLatin1_decode (d : Bytes) : IsLatin1 (decodeLatin1 d) :=
  (encodeLatin1_ok_iff _).1 ⟨d, encodeLatin1_decodeLatin1 d⟩

theorem decodeLatin1_length (d : Bytes) : (decodeLatin1 d).length = d.length := by
  simp [decodeLatin1]

theorem nulFree_decode {d : Bytes} (h : 0 ∉ d) : NulFree (decodeLatin1 d) := by
  intro c hc h0
  simp only [decodeLatin1, List.mem_map] at hc
  obtain ⟨b, hb, rfl⟩ := hc
  have hb' := b.toNat_lt
  have : (latin1Char b).toNat = b.toNat := ofNat_valid (by omega)
  rw [this] at h0
  have : b = 0 := UInt8.toNat_inj.1 (by simpa using h0)
  exact h (this ▸ hb)

theorem string_gp : GP getString Text := by
  intro r v r' hb h
  obtain ⟨n, r1, h1, h2⟩ := R.bind_inv h
  obtain ⟨d, r2, h3, h4⟩ := R.bind_inv h2
  obtain ⟨u, r3, h5, h6⟩ := R.bind_inv h4
  obtain ⟨rfl, rfl⟩ := R.pure_inv h6
  have a := getU32_inv h1
  have b := takeCut_inv h3
  have c := subRem_inv h5
  refine ⟨isLatin1_decode d, nulFree_decode b.2.1, ?_⟩
  rw [decodeLatin1_length]
  omega

theorem wide_gp : GP getWide WText := by
  intro r v r' hb h
  obtain ⟨n, r1, h1, h2⟩ := R.bind_inv h
  obtain ⟨d, r2, h3, h4⟩ := R.bind_inv h2
  have a := getU32_inv h1
  have b := getN_inv h3
  obtain ⟨hs, rfl⟩ := R.ofRes_inv h4
  show 8 + utf16Len v < 2 ^ 32
  rw [← encodeUtf16le_utf16Len, encode_of_decode_utf16le hs]
  omega

theorem enum_gp {α : Type} {ofU32 : UInt32 → Res α} {P : α → Prop}
    (h : ∀ n v, ofU32 n = .ok v → P v) : GP (getEnum ofU32) P := by
  intro r v r' hb hr
  obtain ⟨n, r1, h1, h2⟩ := R.bind_inv hr
  exact h n _ (R.ofRes_inv h2).1

theorem quant8_gp : GP getQuant8 Level8 := by
  intro r v r' hb hr
  obtain ⟨n, r1, h1, h2⟩ := R.bind_inv hr
  obtain ⟨e, _⟩ := R.pure_inv h2
  obtain ⟨j, hj, e'⟩ := dequantize8_level n
  exact ⟨j, hj, e.trans e'⟩

theorem font_gp : GP getFont Font.WF := by
  intro r v r' hb hr
  obtain ⟨ver, r1, -, hr⟩ := R.bind_inv hr
  have key : ∀ r, (do
      let charset ← getU16N
      let style ← getU8N
      let weight ← getU16N
      let size ← getU32N
      let name_len ← getU8N
      let name ← getStrN name_len.toNat
      return ({ charset, style := FontStyles.ofFlags style, weight, size, name } : Font)) r
      = .ok (v, r') → v.WF := by
    intro r hr
    obtain ⟨_, _, -, hr⟩ := R.bind_inv hr
    obtain ⟨_, _, -, hr⟩ := R.bind_inv hr
    obtain ⟨_, _, -, hr⟩ := R.bind_inv hr
    obtain ⟨_, _, -, hr⟩ := R.bind_inv hr
    obtain ⟨n, _, -, hr⟩ := R.bind_inv hr
    obtain ⟨s, _, h1, hr⟩ := R.bind_inv hr
    obtain ⟨rfl, -⟩ := R.pure_inv hr
    obtain ⟨d, _, h2, h3⟩ := R.bind_inv h1
    obtain ⟨rfl, -⟩ := R.pure_inv h3
    have b := takeCut_inv h2
    refine ⟨isLatin1_decode d, nulFree_decode b.2.1, ?_⟩
    show (decodeLatin1 d).length < 256
    rw [decodeLatin1_length]
    have := n.toNat_lt
    omega
  by_cases hv : ver ≠ 1
  · simp only at hr
    rw [if_pos hv] at hr
    obtain ⟨_, _, hp, _⟩ := R.bind_inv hr
    cases hp
  · simp only at hr
    rw [if_neg hv] at hr
    exact key _ hr

/-! ### Whole structures -/

/-- An arm keeps an invariant. -/
def ArmInv {σ : Type} (Inv : σ → Prop) (f : σ → R σ) : Prop :=
  ∀ s r s' r', Inv s → r.brr + 4 < 2 ^ 32 → f s r = .ok (s', r') → Inv s'

theorem ArmInv.fld {σ α : Type} {Inv : σ → Prop} {g : R α} {set : α → σ → σ} {P : α → Prop}
    (hg : GP g P) (h : ∀ s v, Inv s → P v → Inv (set v s)) : ArmInv Inv (Vpin.fld g set) := by
  intro s r s' r' hi hb hr
  obtain ⟨v, r1, h1, h2⟩ := R.bind_inv hr
  obtain ⟨rfl, -⟩ := R.pure_inv h2
  exact h s v hi (hg r v r1 hb h1)

theorem ArmInv.pure {σ : Type} {Inv : σ → Prop} : ArmInv Inv Pure.pure := by
  intro s r s' r' hi _ hr
  obtain ⟨rfl, -⟩ := R.pure_inv hr
  exact hi

/-- All arms keep an invariant. -/
def ArmsInv {σ : Type} (Inv : σ → Prop) (hs : Handlers σ) : Prop := ∀ x ∈ hs, ArmInv Inv x.2

theorem ArmsInv.nil {σ : Type} {Inv : σ → Prop} : ArmsInv Inv [] := fun _ h => by cases h

theorem ArmsInv.cons {σ : Type} {Inv : σ → Prop} {t : Tag} {f : σ → R σ} {hs : Handlers σ}
    (h : ArmInv Inv f) (hs' : ArmsInv Inv hs) : ArmsInv Inv ((t, f) :: hs) := by
  intro x hx
  rcases List.mem_cons.1 hx with rfl | hx
  · exact h
  · exact hs' x hx

theorem ArmsInv.append {σ : Type} {Inv : σ → Prop} {a b : Handlers σ}
    (ha : ArmsInv Inv a) (hb : ArmsInv Inv b) : ArmsInv Inv (a ++ b) := by
  intro x hx
  rcases List.mem_append.1 hx with hx | hx
  · exact ha x hx
  · exact hb x hx

theorem lookup_mem {β : Type} {l : List (Tag × β)} {t : Tag} {b : β} (h : l.lookup t = some b) :
    (t, b) ∈ l := by
  induction l with
  | nil => cases h
  | cons x l ih =>
    rw [List.lookup_cons] at h
    split at h
    · next he => cases h; simp at he; simp [he]
    · exact List.mem_cons_of_mem _ (ih h)

theorem next_brr {r r' : Rd} {u : Unit} (h : next r = .ok (u, r')) : r'.brr + 4 < 2 ^ 32 := by
  unfold next at h
  simp only at h
  split at h
  · cases h
  · split at h
    · cases h
    · split at h
      · cases h
      · split at h
        · cases h
        · split at h
          · cases h
          · cases h
            show (ofLe32 _).toNat - 4 + 4 < 2 ^ 32
            have := (ofLe32 ((r.rest.drop r.brr).take 4)).toNat_lt
            omega

theorem dispatch_none {σ : Type} {hs : Handlers σ} {t : Tag} {s : σ} {r : Rd}
    (hl : hs.lookup t = none) (h0 : hs.lookup anyTag = none) :
    dispatch hs t s r = .ok (s, { r with rest := r.rest.drop r.brr, brr := 0 }) := by
  unfold dispatch; rw [hl, h0]; rfl

theorem dispatch_default {σ : Type} {hs : Handlers σ} {t : Tag} {f : σ → R σ}
    (hl : hs.lookup t = none) (h0 : hs.lookup anyTag = some f) : dispatch hs t = f := by
  funext s; simp [dispatch, hl, h0]

theorem loop_inv {σ : Type} {Inv : σ → Prop} {hs : Handlers σ} (ha : ArmsInv Inv hs) (fuel : Nat) :
    ∀ s r s' r', Inv s → loop (dispatch hs) fuel s r = .ok (s', r') → Inv s' := by
  induction fuel with
  | zero => intro s r s' r' _ h; cases h
  | succ n ih =>
    intro s r s' r' hi h
    unfold loop at h
    split at h
    · cases h
    · next u r1 hn =>
      split at h
      · cases h; exact hi
      · split at h
        · cases h
        · next s1 r2 hd =>
          refine ih s1 r2 s' r' ?_ h
          cases hf : hs.lookup r1.tag with
          | some f =>
            rw [dispatch_some hf] at hd
            exact ha _ (lookup_mem hf) s r1 s1 r2 hi (next_brr hn) hd
          | none =>
            cases h0 : hs.lookup anyTag with
            | some f =>
              rw [dispatch_default hf h0] at hd
              exact ha _ (lookup_mem h0) s r1 s1 r2 hi (next_brr hn) hd
            | none =>
              rw [dispatch_none hf h0] at hd
              cases hd; exact hi

theorem readWith_gp {σ : Type} {Inv : σ → Prop} {hs : Handlers σ} {s : σ} (ha : ArmsInv Inv hs)
    (h0 : Inv s) : GP (readWith hs s) Inv :=
  fun r v r' _ h => loop_inv ha _ s r v r' h0 h

theorem readStruct_inv {σ : Type} {Inv : σ → Prop} {hs : Handlers σ} {s v : σ} {data : Bytes}
    (ha : ArmsInv Inv hs) (h0 : Inv s) (h : readStruct hs s data = .ok v) : Inv v := by
  unfold readStruct at h
  split at h
  · next v' r' h' => cases h; exact loop_inv ha _ s _ _ r' h0 h'
  · cases h

theorem getChild_gp {σ : Type} {g : R σ} {P : σ → Prop} (hg : GP g P) : GP (getChild g) P := by
  intro r v r' _ h
  unfold getChild at h
  split at h
  · cases h
  · next v' r1 h' =>
    cases h
    exact hg r.child _ r1 (by simp [Rd.child]) h'

theorem timerArms_inv {σ : Type} {Inv : σ → Prop} {L : Lens σ TimerData}
    (h : ∀ s t, Inv s → Inv (L.put t s)) : ArmsInv Inv (timerArms L) :=
  .cons (.fld GP.any fun s _ hi _ => h s _ hi) <|
  .cons (.fld GP.any fun s _ hi _ => h s _ hi) .nil

theorem sharedArms_inv {σ : Type} {Inv : σ → Prop} {L : Lens σ SharedAttrs}
    (hget : ∀ s, Inv s → (L.get s).WF) (h : ∀ s a, Inv s → a.WF → Inv (L.put a s)) :
    ArmsInv Inv (sharedArms L) :=
  .cons (.fld GP.any fun s _ hi _ => h s _ hi ⟨(hget s hi).1, (hget s hi).2⟩) <|
  .cons (.fld GP.any fun s _ hi _ => h s _ hi ⟨(hget s hi).1, (hget s hi).2⟩) <|
  .cons (.fld string_gp fun s _ hi hv => h s _ hi ⟨.some hv, (hget s hi).2⟩) <|
  .cons (.fld GP.any fun s _ hi _ => h s _ hi ⟨(hget s hi).1, (hget s hi).2⟩) <|
  .cons (.fld string_gp fun s _ hi hv => h s _ hi ⟨(hget s hi).1, .some hv⟩) .nil

end Vpin
