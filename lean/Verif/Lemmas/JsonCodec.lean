import Verif.Model.JsonCodec
import Verif.Spec.Json
import Verif.Lemmas.Bytes
import Verif.Lemmas.Color
import Verif.Lemmas.Hex
/-! Helper lemmas: JSON forms that are read back. -/
namespace Vpin

/-- Values with `P` are read back from their JSON form, which is never `null`, and can be printed. -/
structure CodecOK (keeps : F32 → Prop) {α : Type} (c : Codec α) (P : α → Prop) : Prop where
  back : ∀ a, P a → c.ofJ (c.toJ a) = .ok a
  valid : ∀ a, P a → (c.toJ a).Valid keeps
  notNull : ∀ a, P a → c.toJ a ≠ .null

/-- no condition -/
def AnyP {α : Type} : α → Prop := fun _ => True

section
variable {keeps : F32 → Prop}

theorem jBool_ok : CodecOK keeps jBool AnyP := ⟨fun _ _ => rfl, fun _ _ => .bool _, fun _ _ h => by cases h⟩

theorem jStr_ok : CodecOK keeps jStr AnyP := ⟨fun _ _ => rfl, fun _ _ => .str _, fun _ _ h => by cases h⟩

theorem jU8_num (n : Int) : jU8.ofJ (.num n) =
    if 0 ≤ n ∧ n < 2 ^ 8 then .ok (UInt8.ofNat n.toNat) else .error .io := rfl

theorem jU8_ok : CodecOK keeps jU8 AnyP where
  back n _ := by
    have := n.toNat_lt
    show jU8.ofJ (.num n.toNat) = _
    rw [jU8_num]
    rw [if_pos (by omega)]
    simp
  valid n _ := .num _ (by have := n.toNat_lt; omega)
  notNull _ _ h := by cases h

theorem jU16_num (n : Int) : jU16.ofJ (.num n) =
    if 0 ≤ n ∧ n < 2 ^ 16 then .ok (UInt16.ofNat n.toNat) else .error .io := rfl

theorem jU16_ok : CodecOK keeps jU16 AnyP where
  back n _ := by
    have := n.toNat_lt
    show jU16.ofJ (.num n.toNat) = _
    rw [jU16_num]
    rw [if_pos (by omega)]
    simp
  valid n _ := .num _ (by have := n.toNat_lt; omega)
  notNull _ _ h := by cases h

theorem jU32_num (n : Int) : jU32.ofJ (.num n) =
    if 0 ≤ n ∧ n < 2 ^ 32 then .ok (UInt32.ofNat n.toNat) else .error .io := rfl

theorem jU32_ok : CodecOK keeps jU32 AnyP where
  back n _ := by
    have := n.toNat_lt
    show jU32.ofJ (.num n.toNat) = _
    rw [jU32_num]
    rw [if_pos (by omega)]
    simp
  valid n _ := .num _ (by have := n.toNat_lt; omega)
  notNull _ _ h := by cases h

theorem jI32_ok : CodecOK keeps jI32 AnyP where
  back n _ := by
    have h1 := n.le_toInt
    have h2 := n.toInt_lt
    show (if -2 ^ 31 ≤ n.toInt ∧ n.toInt < 2 ^ 31 then Except.ok (Int32.ofInt n.toInt) else _) = _
    rw [if_pos ⟨h1, h2⟩, Int32.ofInt_toInt]
  valid n _ := .num _ (by have h1 := n.le_toInt; have h2 := n.toInt_lt; omega)
  notNull _ _ h := by cases h

theorem jF32_ok : CodecOK keeps jF32 (PlainF32 keeps) where
  back x h := by
    show jF32.ofJ (if x.isFinite then .f32 x else .null) = _
    rw [if_pos h.1]; rfl
  valid x h := by
    show J.Valid keeps (if x.isFinite then .f32 x else .null)
    rw [if_pos h.1]; exact .f32 _ h.2
  notNull x h := by
    show (if x.isFinite then J.f32 x else .null) ≠ .null
    rw [if_pos h.1]; intro h; cases h

theorem isFinite_of_not {x : F32} (h1 : x.isNaN = false) (h2 : x.isInf = false) : x.isFinite = true := by
  unfold F32.isNaN F32.isInf F32.isFinite at *
  simp at h1 h2 ⊢
  omega

theorem nanInf_finite {x : F32} (h : x.isFinite = true) : nanInfToJ x = .f32 x := by
  unfold nanInfToJ
  have h1 : x.isNaN = false := by
    unfold F32.isNaN F32.isFinite at *; simp at h ⊢; omega
  have h2 : x.isInf = false := by
    unfold F32.isInf F32.isFinite at *; simp at h ⊢; omega
  rw [h1, h2]; simp

theorem nanInf_nan {x : F32} (h : x.isNaN = true) : nanInfToJ x = .str ("NaN|".toList ++ hexEncode (le32 x)) := by
  unfold nanInfToJ; rw [if_pos h]

theorem nanInf_inf {x : F32} (h : x.isInf = true) : x = 0x7f800000 ∧ nanInfToJ x = .str "Inf".toList ∨
    x = 0xff800000 ∧ nanInfToJ x = .str "-Inf".toList := by
  have : x.toNat = 0x7f800000 ∨ x.toNat = 0xff800000 := by
    have := x.toNat_lt
    unfold F32.isInf at h; simp at h; omega
  rcases this with h | h
  · have : x = 0x7f800000 := UInt32.toNat_inj.mp (by simpa using h)
    subst this; exact .inl ⟨rfl, rfl⟩
  · have : x = 0xff800000 := UInt32.toNat_inj.mp (by simpa using h)
    subst this; exact .inr ⟨rfl, rfl⟩

theorem nanInf_back (x : F32) : nanInfOfJ (nanInfToJ x) = .ok x := by
  cases h1 : x.isNaN with
  | true =>
    rw [nanInf_nan h1]
    have e : ("NaN|".toList ++ hexEncode (le32 x)).map asciiLower = "nan|".toList ++ hexEncode (le32 x) := by
      rw [List.map_append, hexEncode_lower]
      congr 1
    have t4 : ("nan|".toList ++ hexEncode (le32 x)).take 4 = "nan|".toList := rfl
    have d4 : ("nan|".toList ++ hexEncode (le32 x)).drop 4 = hexEncode (le32 x) := rfl
    have n1 : "nan|".toList ++ hexEncode (le32 x) ≠ "inf".toList := by
      intro h
      exact absurd (List.cons.inj h).1 (by decide)
    have n2 : "nan|".toList ++ hexEncode (le32 x) ≠ "-inf".toList := by
      intro h
      exact absurd (List.cons.inj h).1 (by decide)
    unfold nanInfOfJ
    dsimp only
    rw [e, if_neg n1, if_neg n2, if_pos t4, d4, hexDecode_encode]
    show Except.ok (ofLe32 (le32 x)) = _
    rw [ofLe32_le32]
  | false =>
    cases h2 : x.isInf with
    | true =>
      rcases nanInf_inf h2 with ⟨rfl, e⟩ | ⟨rfl, e⟩ <;> rw [e] <;> decide +kernel
    | false => rw [nanInf_finite (isFinite_of_not h1 h2)]; rfl

theorem jNanInf_ok : CodecOK keeps jNanInf (AnyF32 keeps) where
  back x _ := nanInf_back x
  valid x h := by
    show J.Valid keeps (nanInfToJ x)
    cases hf : x.isFinite with
    | true => rw [nanInf_finite hf]; exact .f32 _ (h hf)
    | false =>
      cases hn : x.isNaN with
      | true => rw [nanInf_nan hn]; exact .str _
      | false =>
        cases hi : x.isInf with
        | true => rcases nanInf_inf hi with ⟨_, e⟩ | ⟨_, e⟩ <;> rw [e] <;> exact .str _
        | false => rw [isFinite_of_not hn hi] at hf; cases hf
  notNull x h := by
    show nanInfToJ x ≠ .null
    unfold nanInfToJ
    repeat' split
    all_goals (intro h; cases h)

theorem jColor_ok : CodecOK keeps jColor AnyP where
  back c _ := color_text_back c
  valid c _ := .str _
  notNull c _ h := by cases h

theorem jOpt_some {α : Type} {c : Codec α} {P : α → Prop} (hc : CodecOK keeps c P) {a : α} (h : P a) :
    (jOpt c).ofJ (c.toJ a) = .ok (some a) := by
  have hn := hc.notNull a h
  have hb := hc.back a h
  revert hn hb
  generalize c.toJ a = j
  intro hn hb
  cases j <;> first | exact absurd rfl hn | (show some <$> c.ofJ _ = _; rw [hb]; rfl)

theorem jOpt_back {α : Type} {c : Codec α} {P : α → Prop} (hc : CodecOK keeps c P) {o : Option α} (h : OptP P o) :
    (jOpt c).ofJ ((jOpt c).toJ o) = .ok o := by
  cases o with
  | none => rfl
  | some a => exact jOpt_some hc (h a rfl)

theorem jOpt_valid {α : Type} {c : Codec α} {P : α → Prop} (hc : CodecOK keeps c P) {o : Option α} (h : OptP P o) :
    ((jOpt c).toJ o).Valid keeps := by
  cases o with
  | none => exact .null
  | some a => exact hc.valid a (h a rfl)

theorem mapM_back {α : Type} {c : Codec α} {P : α → Prop} (hc : CodecOK keeps c P) : ∀ l : List α, (∀ a ∈ l, P a) →
    (l.map c.toJ).mapM c.ofJ = .ok l
  | [], _ => rfl
  | a :: l, h => by
    rw [List.map_cons, List.mapM_cons, hc.back a (h a (by simp)), mapM_back hc l fun b hb => h b (by simp [hb])]
    rfl

theorem jVec_ok {α : Type} {c : Codec α} {P : α → Prop} (hc : CodecOK keeps c P) :
    CodecOK keeps (jVec c) (fun l => ∀ a ∈ l, P a) where
  back l h := mapM_back hc l h
  valid l h := .arr _ (by
    intro j hj
    obtain ⟨a, ha, rfl⟩ := List.mem_map.mp hj
    exact hc.valid a (h a ha))
  notNull l h e := by cases e

/-! ### Structures -/

/-- the field is read back from what is written for `s`, as the change `put` of the structure -/
structure FieldOK (keeps : F32 → Prop) {σ : Type} (s : σ) (f : JField σ) (put : σ → σ) : Prop where
  back : ∀ b, f.set (f.get s) b = .ok (put b)
  valid : ∀ j, f.get s = some j → j.Valid keeps

inductive FieldsOK (keeps : F32 → Prop) {σ : Type} (s : σ) : List (JField σ) → List (σ → σ) → Prop
  | nil : FieldsOK keeps s [] []
  | cons {f : JField σ} {p : σ → σ} {fs : List (JField σ)} {ps : List (σ → σ)} (h : FieldOK keeps s f p)
      (hs : FieldsOK keeps s fs ps) : FieldsOK keeps s (f :: fs) (p :: ps)

theorem FieldsOK.append {σ : Type} {s : σ} {fs gs : List (JField σ)} {ps qs : List (σ → σ)}
    (h : FieldsOK keeps s fs ps) (hg : FieldsOK keeps s gs qs) : FieldsOK keeps s (fs ++ gs) (ps ++ qs) := by
  induction h with
  | nil => exact hg
  | cons h _ ih => exact .cons h ih

theorem req_ok {σ α : Type} {s : σ} {c : Codec α} {P : α → Prop} {names : List Key} {get : σ → α}
    {put : α → σ → σ} (hc : CodecOK keeps c P) (h : P (get s)) :
    FieldOK keeps s (JField.req names c get put) (put (get s)) where
  back b := by
    show (fun a => put a b) <$> c.ofJ (c.toJ (get s)) = _
    rw [hc.back _ h]; rfl
  valid j e := by cases e; exact hc.valid _ h

theorem default_ok {σ α : Type} {s : σ} {c : Codec α} {P : α → Prop} {names : List Key} {dflt : α} {get : σ → α}
    {put : α → σ → σ} (hc : CodecOK keeps c P) (h : P (get s)) :
    FieldOK keeps s (JField.default names c dflt get put) (put (get s)) where
  back b := by
    show (fun a => put a b) <$> c.ofJ (c.toJ (get s)) = _
    rw [hc.back _ h]; rfl
  valid j e := by cases e; exact hc.valid _ h

theorem opt_ok {σ α : Type} {s : σ} {c : Codec α} {P : α → Prop} {names : List Key} {get : σ → Option α}
    {put : Option α → σ → σ} (hc : CodecOK keeps c P) (h : OptP P (get s)) :
    FieldOK keeps s (JField.opt names c get put) (put (get s)) where
  back b := by
    show (fun a => put a b) <$> (jOpt c).ofJ ((jOpt c).toJ (get s)) = _
    rw [jOpt_back hc h]; rfl
  valid j e := by cases e; exact jOpt_valid hc h

theorem optSkip_ok {σ α : Type} {s : σ} {c : Codec α} {P : α → Prop} {names : List Key} {get : σ → Option α}
    {put : Option α → σ → σ} (hc : CodecOK keeps c P) (h : OptP P (get s)) :
    FieldOK keeps s (JField.optSkip names c get put) (put (get s)) where
  back b := by
    show (JField.optSkip names c get put).set ((get s).map c.toJ) b = _
    cases e : get s with
    | none => rfl
    | some a =>
      show (fun a => put a b) <$> (jOpt c).ofJ (c.toJ a) = _
      rw [jOpt_some hc (h a e)]; rfl
  valid j e := by
    have e : (get s).map c.toJ = some j := e
    cases g : get s with
    | none => rw [g] at e; cases e
    | some a => rw [g] at e; cases e; exact hc.valid _ (h a g)

theorem timer_ok {σ : Type} {s : σ} {L : Lens σ TimerData} :
    FieldsOK keeps s (timerFields L)
      [fun b => L.put { L.get b with is_enabled := (L.get s).is_enabled } b,
       fun b => L.put { L.get b with interval := (L.get s).interval } b] :=
  .cons (req_ok jBool_ok trivial) (.cons (req_ok jI32_ok trivial) .nil)

/-! the member of a field among the members that are written -/

/-- all names of the fields -/
def allNames {σ : Type} (fs : List (JField σ)) : List Key := fs.flatMap (·.names)

def written {σ : Type} (fs : List (JField σ)) (s : σ) : List (Key × J) :=
  fs.filterMap fun f => (f.get s).map fun j => (f.names.headD 0, j)

/-- every field has a name and no name belongs to two fields -/
def NamesOK {σ : Type} (fs : List (JField σ)) : Prop := (∀ f ∈ fs, f.names ≠ []) ∧ (allNames fs).Nodup

theorem headD_mem {l : List Key} (h : l ≠ []) : l.headD 0 ∈ l := by
  cases l with
  | nil => exact absurd rfl h
  | cons a l => exact List.mem_cons_self

theorem written_names {σ : Type} {fs : List (JField σ)} {s : σ} (h : ∀ f ∈ fs, f.names ≠ []) {m : Key × J}
    (hm : m ∈ written fs s) : m.1 ∈ allNames fs := by
  obtain ⟨f, hf, e⟩ := List.mem_filterMap.mp hm
  cases g : f.get s with
  | none => rw [g] at e; cases e
  | some j =>
    rw [g] at e; cases e
    exact List.mem_flatMap.mpr ⟨f, hf, headD_mem (h f hf)⟩

theorem members_none {σ : Type} {fs : List (JField σ)} {s : σ} (h : ∀ f ∈ fs, f.names ≠ []) {names : List Key}
    (hd : ∀ n ∈ names, n ∉ allNames fs) : membersOf names (written fs s) = [] := by
  unfold membersOf
  rw [List.filter_eq_nil_iff]
  intro m hm hc
  exact hd _ (by simpa using hc) (written_names h hm)

theorem written_cons {σ : Type} (f : JField σ) (fs : List (JField σ)) (s : σ) :
    written (f :: fs) s = ((f.get s).map fun j => (f.names.headD 0, j)).toList ++ written fs s := by
  unfold written
  rw [List.filterMap_cons]
  cases f.get s <;> rfl

theorem written_append {σ : Type} (fs gs : List (JField σ)) (s : σ) :
    written (fs ++ gs) s = written fs s ++ written gs s := by
  unfold written; exact List.filterMap_append

theorem find_written {σ : Type} {pre post : List (JField σ)} {f : JField σ} {s : σ}
    (h : NamesOK (pre ++ f :: post)) : f.find (written (pre ++ f :: post) s) = .ok (f.get s) := by
  obtain ⟨hn, hd⟩ := h
  have en : allNames (pre ++ f :: post) = allNames pre ++ (f.names ++ allNames post) := by
    unfold allNames; rw [List.flatMap_append, List.flatMap_cons]
  rw [en] at hd
  obtain ⟨_, hd2, hd3⟩ := List.nodup_append.mp hd
  obtain ⟨_, _, hd4⟩ := List.nodup_append.mp hd2
  have m1 : membersOf f.names (written pre s) = [] :=
    members_none (fun g hg => hn g (by simp [hg])) fun n hn1 hn2 => hd3 n hn2 n (by simp [hn1]) rfl
  have m2 : membersOf f.names (written post s) = [] :=
    members_none (fun g hg => hn g (by simp [hg])) fun n hn1 hn2 => hd4 n hn1 n hn2 rfl
  have hf := headD_mem (hn f (by simp))
  have m3 : membersOf f.names (written (pre ++ f :: post) s) =
      ((f.get s).map fun j => (f.names.headD 0, j)).toList := by
    rw [written_append, written_cons]
    unfold membersOf at *
    rw [List.filter_append, List.filter_append, m1, m2]
    cases f.get s with
    | none => rfl
    | some j => simpa using hf
  unfold JField.find
  rw [m3]
  cases f.get s <;> rfl

theorem readJFields_written {σ : Type} {s : σ} : ∀ {fs : List (JField σ)} {ps : List (σ → σ)} (pre : List (JField σ))
    (b : σ), FieldsOK keeps s fs ps → NamesOK (pre ++ fs) →
    readJFields (written (pre ++ fs) s) fs b = .ok (ps.foldl (fun b p => p b) b)
  | [], _, pre, b, .nil, _ => rfl
  | f :: fs, _, pre, b, .cons (p := p) (ps := ps) h hs, hn => by
    unfold readJFields
    rw [find_written hn]
    dsimp only
    rw [h.back]
    dsimp only
    have e : pre ++ f :: fs = (pre ++ [f]) ++ fs := by simp
    rw [e] at hn ⊢
    exact readJFields_written (pre ++ [f]) (p b) hs hn

theorem readJ_writeJ {σ : Type} {s : σ} {fs : List (JField σ)} {ps : List (σ → σ)} {base : σ}
    (h : FieldsOK keeps s fs ps) (hn : NamesOK fs) :
    readJ fs base (writeJ fs s) = .ok (ps.foldl (fun b p => p b) base) :=
  readJFields_written [] base h hn

theorem written_head_nodup {σ : Type} {s : σ} : ∀ {fs : List (JField σ)}, NamesOK fs →
    ((written fs s).map (·.1)).Nodup
  | [], _ => by simp [written]
  | f :: fs, ⟨hn, hd⟩ => by
    have en : allNames (f :: fs) = f.names ++ allNames fs := rfl
    rw [en] at hd
    obtain ⟨_, hd2, hd3⟩ := List.nodup_append.mp hd
    have ih := written_head_nodup (s := s) (fs := fs) ⟨fun g hg => hn g (by simp [hg]), hd2⟩
    rw [written_cons]
    cases f.get s with
    | none => exact ih
    | some j =>
      show (f.names.headD 0 :: (written fs s).map (·.1)).Nodup
      refine List.nodup_cons.mpr ⟨fun hm => ?_, ih⟩
      obtain ⟨m, hm, e⟩ := List.mem_map.mp hm
      exact hd3 _ (headD_mem (hn f (by simp))) _
        (written_names (fun g hg => hn g (by simp [hg])) hm) e.symm

theorem written_valid {σ : Type} {s : σ} {fs : List (JField σ)} {ps : List (σ → σ)} (h : FieldsOK keeps s fs ps) :
    ∀ m ∈ written fs s, m.2.Valid keeps := by
  induction h with
  | nil => intro m hm; cases hm
  | @cons f p fs ps h _ ih =>
    intro m hm
    rw [written_cons] at hm
    rcases List.mem_append.mp hm with hm | hm
    · cases g : f.get s with
      | none => rw [g] at hm; cases hm
      | some j =>
        rw [g] at hm
        rw [List.mem_singleton.mp hm]
        exact h.valid j g
    · exact ih m hm

theorem writeJ_valid {σ : Type} {s : σ} {fs : List (JField σ)} {ps : List (σ → σ)} (h : FieldsOK keeps s fs ps)
    (hn : NamesOK fs) : (writeJ fs s).Valid keeps :=
  .obj _ (written_head_nodup hn) (written_valid h)

/-- a structure whose fields are all in its JSON form -/
theorem jStruct_ok {σ : Type} {fs : List (JField σ)} {base : σ} {P : σ → Prop} {ps : σ → List (σ → σ)}
    (hn : NamesOK fs) (h : ∀ s, P s → FieldsOK keeps s fs (ps s))
    (he : ∀ s, (ps s).foldl (fun b p => p b) base = s) : CodecOK keeps (jStruct fs base) P where
  back s hs := by
    show readJ fs base (writeJ fs s) = _
    rw [readJ_writeJ (h s hs) hn, he]
  valid s hs := writeJ_valid (h s hs) hn
  notNull s _ e := by cases e

instance {σ : Type} (fs : List (JField σ)) : Decidable (NamesOK fs) :=
  inferInstanceAs (Decidable ((∀ f ∈ fs, f.names ≠ []) ∧ _))

theorem jVertex2D_ok : CodecOK keeps jVertex2D (Vertex2D.JsonOk keeps) :=
  jStruct_ok (ps := fun s => [_, _]) (by decide) (fun _ h => .cons (req_ok jF32_ok h.1) (.cons (req_ok jF32_ok h.2) .nil))
    fun _ => rfl

theorem jVertex3D_ok : CodecOK keeps jVertex3D (Vertex3D.JsonOk keeps) :=
  jStruct_ok (ps := fun s => [_, _, _]) (by decide)
    (fun _ h => .cons (req_ok jF32_ok h.1) (.cons (req_ok jF32_ok h.2.1) (.cons (req_ok jF32_ok h.2.2) .nil)))
    fun _ => rfl

theorem fontStyles_back (s : FontStyles) : FontStyles.ofJ s.toJ = .ok s := by
  obtain ⟨a, b, c, d, e⟩ := s
  revert a b c d e
  decide +kernel

theorem jFontStyles_ok : CodecOK keeps jFontStyles AnyP where
  back s _ := fontStyles_back s
  valid s _ := .arr _ (by
    intro j hj
    obtain ⟨t, _, rfl⟩ := List.mem_map.mp hj
    exact .str _)
  notNull s _ e := by cases e

theorem jFont_ok : CodecOK keeps jFont AnyP :=
  jStruct_ok (ps := fun s => [_, _, _, _, _]) (by decide +kernel)
    (fun s _ => .cons (optSkip_ok jU16_ok fun _ _ => trivial) (.cons (req_ok jFontStyles_ok trivial)
      (.cons (req_ok jU16_ok trivial) (.cons (req_ok jU32_ok trivial) (.cons (req_ok jStr_ok trivial) .nil)))))
    fun s => by
      show Font.mk (Option.getD (if s.charset = 0 then none else some s.charset) 0) _ _ _ _ = s
      split
      · rename_i h; rw [← h]; rfl
      · rfl

end

end Vpin
