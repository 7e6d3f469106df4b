import Verif.Model.Biff
import Verif.Lemmas.Text
/-! Helper lemmas about the BIFF reader and writer. -/
namespace Vpin

/-! ### Tags -/

theorem tagBytes_length (t : Tag) : (tagBytes t).length = 4 := rfl

theorem leNat_inj {a b : Bytes} (ha : 0 ∉ a) (hb : 0 ∉ b) (h : leNat a = leNat b) : a = b := by
  induction a generalizing b with
  | nil =>
    cases b with
    | nil => rfl
    | cons y ys =>
      simp only [leNat] at h
      simp only [List.mem_cons, not_or] at hb
      have : y.toNat ≠ 0 := fun e => hb.1 (by rw [← UInt8.toNat_inj, e]; rfl)
      omega
  | cons x xs ih =>
    cases b with
    | nil =>
      simp only [leNat] at h
      simp only [List.mem_cons, not_or] at ha
      have : x.toNat ≠ 0 := fun e => ha.1 (by rw [← UInt8.toNat_inj, e]; rfl)
      omega
    | cons y ys =>
      simp only [leNat] at h
      simp only [List.mem_cons, not_or] at ha hb
      have hx := x.toNat_lt; have hy := y.toNat_lt
      have h1 : x = y := by rw [← UInt8.toNat_inj]; omega
      have h2 : leNat xs = leNat ys := by omega
      rw [h1, ih ha.2 hb.2 h2]

/-- Equality of tag numbers is equality of the Rust tag strings. -/
theorem tagOfBytes_eq_iff (a b : Bytes) : tagOfBytes a = tagOfBytes b ↔ cutNul a = cutNul b :=
  ⟨leNat_inj (cutNul_zero_not_mem a) (cutNul_zero_not_mem b), fun h => by simp [tagOfBytes, h]⟩

/-! ### Getters -/

/-- `g` reads exactly the bytes `p` and returns `v`, inside a record. -/
def RT {α : Type} (g : R α) (p : Bytes) (v : α) : Prop :=
  ∀ rest b tag w raw, g ⟨p ++ rest, p.length + b, tag, w, raw⟩ = .ok (v, ⟨rest, b, tag, w, raw⟩)

/-- `g` reads exactly the bytes `p` and returns `v`, without touching the record count. -/
def RTN {α : Type} (g : R α) (p : Bytes) (v : α) : Prop :=
  ∀ rest b tag w raw, g ⟨p ++ rest, b, tag, w, raw⟩ = .ok (v, ⟨rest, b, tag, w, raw⟩)

theorem R.bind_ok {α β : Type} {g : R α} {k : α → R β} {r r' : Rd} {v : α}
    (h : g r = .ok (v, r')) : (g >>= k) r = k v r' := by
  show (StateT.bind g k) r = _
  simp only [StateT.bind, h]; rfl

theorem R.bind_err {α β : Type} {g : R α} {k : α → R β} {r : Rd} {e : Err}
    (h : g r = .error e) : (g >>= k) r = .error e := by
  show (StateT.bind g k) r = _
  simp only [StateT.bind, h]; rfl

theorem RT.pure {α : Type} (v : α) : RT (Pure.pure v) [] v := by
  intro rest b tag w raw; simp; rfl

theorem RTN.pure {α : Type} (v : α) : RTN (Pure.pure v) [] v := by
  intro rest b tag w raw; rfl

theorem RT.bind {α β : Type} {g : R α} {k : α → R β} {p q : Bytes} {v : α} {u : β}
    (hg : RT g p v) (hk : RT (k v) q u) : RT (g >>= k) (p ++ q) u := by
  intro rest b tag w raw
  have h1 := hg (q ++ rest) (q.length + b) tag w raw
  rw [List.append_assoc, List.length_append, Nat.add_assoc, R.bind_ok h1]
  exact hk rest b tag w raw

theorem RTN.bind {α β : Type} {g : R α} {k : α → R β} {p q : Bytes} {v : α} {u : β}
    (hg : RTN g p v) (hk : RTN (k v) q u) : RTN (g >>= k) (p ++ q) u := by
  intro rest b tag w raw
  have h1 := hg (q ++ rest) b tag w raw
  rw [List.append_assoc, R.bind_ok h1]
  exact hk rest b tag w raw

theorem RT.map {α β : Type} {g : R α} {f : α → β} {p : Bytes} {v : α}
    (hg : RT g p v) : RT (g >>= fun a => Pure.pure (f a)) p (f v) := by
  have := RT.bind (k := fun a => Pure.pure (f a)) hg (RT.pure (f v))
  simpa using this

theorem RTN.map {α β : Type} {g : R α} {f : α → β} {p : Bytes} {v : α}
    (hg : RTN g p v) : RTN (g >>= fun a => Pure.pure (f a)) p (f v) := by
  have := RTN.bind (k := fun a => Pure.pure (f a)) hg (RTN.pure (f v))
  simpa using this

theorem takeN_rt (p : Bytes) (n : Nat) (h : p.length = n) : RTN (takeN n) p p := by
  intro rest b tag w raw
  subst h
  simp [takeN]

theorem getN_rt (p : Bytes) (n : Nat) (h : p.length = n) : RT (getN n) p p := by
  intro rest b tag w raw
  have h1 := takeN_rt p n h rest (p.length + b) tag w raw
  show (takeN n >>= fun d => subRem n >>= fun _ => Pure.pure d) _ = _
  rw [R.bind_ok h1]
  have h2 : subRem n ⟨rest, p.length + b, tag, w, raw⟩ = .ok ((), ⟨rest, b, tag, w, raw⟩) := by
    subst h; simp [subRem]
  rw [R.bind_ok h2]; rfl

theorem getU32_rt (x : UInt32) : RT getU32 (le32 x) x := by
  have := RT.map (f := ofLe32) (getN_rt (le32 x) 4 rfl)
  rwa [ofLe32_le32] at this

theorem getU32N_rt (x : UInt32) : RTN getU32N (le32 x) x := by
  have := RTN.map (f := ofLe32) (takeN_rt (le32 x) 4 rfl)
  rwa [ofLe32_le32] at this

theorem getF32_rt (x : F32) : RT getF32 (le32 x) x := getU32_rt x

theorem getI32_rt (x : Int32) : RT getI32 (le32 x.toUInt32) x := by
  have := RT.map (f := fun b => (ofLe32 b).toInt32) (getN_rt (le32 x.toUInt32) 4 rfl)
  have e : (ofLe32 (le32 x.toUInt32)).toInt32 = x := by simp
  rwa [e] at this

theorem getU16_rt (x : UInt16) : RT getU16 (le16 x) x := by
  have := RT.map (f := ofLe16) (getN_rt (le16 x) 2 rfl)
  rwa [ofLe16_le16] at this

theorem getU16N_rt (x : UInt16) : RTN getU16N (le16 x) x := by
  have := RTN.map (f := ofLe16) (takeN_rt (le16 x) 2 rfl)
  rwa [ofLe16_le16] at this

theorem getU64_rt (x : UInt64) : RT getU64 (le64 x) x := by
  have := RT.map (f := ofLe64) (getN_rt (le64 x) 8 rfl)
  rwa [ofLe64_le64] at this

theorem getF64_rt (x : F64) : RT getF64 (le64 x) x := getU64_rt x

theorem getU8_rt (x : UInt8) : RT getU8 [x] x := by
  have := RT.map (f := fun b => UInt8.ofNat (leNat b)) (getN_rt [x] 1 rfl)
  have e : UInt8.ofNat (leNat [x]) = x := by simp [leNat]
  rwa [e] at this

theorem getU8N_rt (x : UInt8) : RTN getU8N [x] x := by
  have := RTN.map (f := fun b => UInt8.ofNat (leNat b)) (takeN_rt [x] 1 rfl)
  have e : UInt8.ofNat (leNat [x]) = x := by simp [leNat]
  rwa [e] at this

theorem getBool_rt (x : Bool) : RT getBool (pBool x) x := by
  have := RT.map (f := fun b : Bytes => b != [0, 0, 0, 0]) (getN_rt (pBool x) 4 rfl)
  have e : (pBool x != [0, 0, 0, 0]) = x := by cases x <;> decide
  rw [e] at this
  exact this

theorem takeCut_rt (p : Bytes) (n : Nat) (h : p.length = n) : RTN (takeCut n) p (cutNul p) := by
  intro rest b tag w raw
  subst h
  simp [takeCut]

theorem getStr_rt (p : Bytes) (n : Nat) (h : p.length = n) :
    RT (getStr n) p (decodeLatin1 (cutNul p)) := by
  intro rest b tag w raw
  have h1 := takeCut_rt p n h rest (p.length + b) tag w raw
  show (takeCut n >>= fun d => subRem n >>= fun _ => Pure.pure (decodeLatin1 d)) _ = _
  rw [R.bind_ok h1]
  have h2 : subRem n ⟨rest, p.length + b, tag, w, raw⟩ = .ok ((), ⟨rest, b, tag, w, raw⟩) := by
    subst h; simp [subRem]
  rw [R.bind_ok h2]; rfl

theorem ofNat_toNat_u32 {n : Nat} (h : n < 2 ^ 32) : (UInt32.ofNat n).toNat = n := by
  simp [UInt32.toNat_ofNat']; omega

theorem getString_rt_raw (d : Bytes) (h : d.length < 2 ^ 32) :
    RT getString (le32 (UInt32.ofNat d.length) ++ d) (decodeLatin1 (cutNul d)) := by
  apply RT.bind (getU32_rt _)
  apply getStr_rt
  rw [ofNat_toNat_u32 h]

theorem getStringN_rt_raw (d : Bytes) (h : d.length < 2 ^ 32) :
    RTN getStringN (le32 (UInt32.ofNat d.length) ++ d) (decodeLatin1 (cutNul d)) := by
  apply RTN.bind (getU32N_rt _)
  exact RTN.map (f := decodeLatin1) (takeCut_rt d _ (by rw [ofNat_toNat_u32 h]))

theorem Text.enc {s : Str} (h : Text s) :
    ∃ d, encodeLatin1 s = .ok d ∧ d.length = s.length ∧ 0 ∉ d := by
  obtain ⟨d, hd⟩ := (encodeLatin1_ok_iff s).2 h.1
  exact ⟨d, hd, encodeLatin1_length hd, nulFree_encode hd h.2.1⟩

theorem pString_rt {s : Str} (h : Text s) :
    ∃ p, pString s = .ok p ∧ p.length = 4 + s.length ∧ RT getString p s := by
  obtain ⟨d, hd, hl, h0⟩ := h.enc
  have hlt : d.length < 2 ^ 32 := by rw [hl]; have := h.2.2; omega
  refine ⟨le32 (UInt32.ofNat d.length) ++ d, ?_, ?_, ?_⟩
  · simp only [pString, hd, pLenData, hlt, if_true]
  · simp [hl]
  · have := getString_rt_raw d hlt
    rwa [cutNul_eq_self h0, decodeLatin1_of_encode hd] at this

theorem pWide_rt {s : Str} (h : WText s) :
    ∃ p, pWide s = .ok p ∧ p.length = 4 + (encodeUtf16le s).length ∧ RT getWide p s := by
  have h' : (encodeUtf16le s).length < 2 ^ 32 := by have : 8 + _ < _ := h; rw [encodeUtf16le_utf16Len]; omega
  refine ⟨le32 (UInt32.ofNat (encodeUtf16le s).length) ++ encodeUtf16le s, ?_, ?_, ?_⟩
  · simp only [pWide, pLenData, h', if_true]
  · simp
  · apply RT.bind (getU32_rt _)
    have h1 : RT (R.ofRes (decodeUtf16le (encodeUtf16le s))) [] s := by
      rw [decode_encode_utf16le]; exact RT.pure s
    have := RT.bind (k := fun d => R.ofRes (decodeUtf16le d))
      (getN_rt (encodeUtf16le s) _ rfl) h1
    rw [List.append_nil] at this
    rw [ofNat_toNat_u32 h']
    exact this

/-! ### Writer -/

/-- The bytes of one `write_tagged_*` call. -/
def WOp.bytes : WOp → Bytes
  | .sized t p => le32 (UInt32.ofNat (4 + p.length)) ++ (tagBytes t ++ p)
  | .unsized t p => le32 4 ++ (tagBytes t ++ p)
  | .fail => []

/-- A call that does not panic. -/
def WOp.Good : WOp → Prop
  | .sized t p => t ≠ 0 ∧ 4 + p.length < 2 ^ 32
  | .unsized t _ => t ≠ 0
  | .fail => False

def bytesOf (ops : List WOp) : Bytes := ops.flatMap WOp.bytes

@[simp] theorem bytesOf_nil : bytesOf [] = [] := rfl
@[simp] theorem bytesOf_cons (op : WOp) (ops : List WOp) :
    bytesOf (op :: ops) = op.bytes ++ bytesOf ops := rfl
@[simp] theorem bytesOf_append (a b : List WOp) : bytesOf (a ++ b) = bytesOf a ++ bytesOf b := by
  simp [bytesOf]

/-- bytes of the closing record -/
def endbBytes : Bytes := (WOp.sized ENDB []).bytes

theorem patch_middle (a b c d : Bytes) (h : b.length = c.length) :
    patch (a ++ b ++ d) a.length c = a ++ c ++ d := by
  simp only [patch, List.append_assoc]
  rw [List.take_left, ← h, List.drop_append]
  simp

theorem Wr.endTag_open (w : Wr) (ht : w.tag ≠ 0) (hl : w.recordSize < 2 ^ 32) :
    w.endTag = .ok { w with data := patch w.data w.tagStart (le32 (UInt32.ofNat w.recordSize)), tag := 0 } := by
  unfold Wr.endTag; rw [if_neg ht, if_pos hl]

theorem Wr.endTagNoSize_open (w : Wr) (ht : w.tag ≠ 0) :
    w.endTagNoSize = { w with data := patch w.data w.tagStart (le32 4), tag := 0 } := by
  unfold Wr.endTagNoSize; rw [if_neg ht]

theorem WOp.run_clean (w : Wr) (hw : w.tag = 0) (op : WOp) (h : op.Good) :
    ∃ w', op.run w = .ok w' ∧ w'.tag = 0 ∧ w'.data = w.data ++ op.bytes := by
  have he : w.endTag = .ok w := by simp [Wr.endTag, hw]
  cases op with
  | sized t p =>
    obtain ⟨ht, hl⟩ := h
    refine ⟨{
          data := patch (w.data ++ [0, 0, 0, 0] ++ tagBytes t ++ p) w.data.length
            (le32 (UInt32.ofNat (4 + p.length)))
          tagStart := w.data.length, tag := 0, recordSize := 4 + p.length }, ?_, ?_, ?_⟩
    · simp only [WOp.run, Wr.newTag, he]
      exact Wr.endTag_open _ ht hl
    · rfl
    · show patch _ _ _ = _
      have := patch_middle w.data [0, 0, 0, 0] (le32 (UInt32.ofNat (4 + p.length)))
        (tagBytes t ++ p) rfl
      simp only [WOp.bytes, List.append_assoc] at *
      exact this
  | unsized t p =>
    have ht : t ≠ 0 := h
    refine ⟨{
          data := patch (w.data ++ [0, 0, 0, 0] ++ tagBytes t ++ p) w.data.length (le32 4)
          tagStart := w.data.length, tag := 0, recordSize := 4 + p.length }, ?_, ?_, ?_⟩
    · simp only [WOp.run, Wr.newTag, he]
      exact congrArg Except.ok (Wr.endTagNoSize_open _ ht)
    · rfl
    · show patch _ _ _ = _
      have := patch_middle w.data [0, 0, 0, 0] (le32 4) (tagBytes t ++ p) rfl
      simp only [WOp.bytes, List.append_assoc] at *
      exact this
  | fail => exact absurd h (by simp [WOp.Good])

theorem runOps_clean (w : Wr) (hw : w.tag = 0) (ops : List WOp) (h : ∀ op ∈ ops, op.Good) :
    ∃ w', runOps w ops = .ok w' ∧ w'.tag = 0 ∧ w'.data = w.data ++ bytesOf ops := by
  induction ops generalizing w with
  | nil => exact ⟨w, rfl, hw, by simp⟩
  | cons op ops ih =>
    obtain ⟨w1, h1, ht1, hd1⟩ := WOp.run_clean w hw op (h op (by simp))
    obtain ⟨w2, h2, ht2, hd2⟩ := ih w1 ht1 (fun o ho => h o (by simp [ho]))
    refine ⟨w2, ?_, ht2, ?_⟩
    · simp only [runOps, h1, h2]
    · rw [hd2, hd1]; simp

theorem writeBiff_ok (ops : List WOp) (h : ∀ op ∈ ops, op.Good) :
    writeBiff ops = .ok (bytesOf ops ++ endbBytes) := by
  obtain ⟨w, hr, ht, hd⟩ := runOps_clean {} rfl ops h
  obtain ⟨w', hr', _, hd'⟩ := WOp.run_clean w ht (.sized ENDB []) ⟨by decide, by decide⟩
  have hc : w.close true = .ok w' := by
    rw [← hr']
    simp [Wr.close, WOp.run]
    cases w.newTag ENDB <;> simp [Wr.write]
  simp only [writeBiff, hr, hc, hd', hd]
  rfl

/-! ### Reading records -/

theorem next_record (t : Tag) (hv : ValidTag t) (n : Nat) (hn : 4 + n < 2 ^ 32) (body : Bytes)
    (tag : Tag) (w : Bool) (raw : Bytes) (hw : t ≠ ENDB ∨ w = false ∨ body = []) :
    next ⟨le32 (UInt32.ofNat (4 + n)) ++ (tagBytes t ++ body), 0, tag, w, raw⟩
      = .ok ((), ⟨body, n, t, w, tagBytes t⟩) := by
  have hsz : (ofLe32 (le32 (UInt32.ofNat (4 + n)))).toNat = 4 + n := by
    rw [ofLe32_le32, ofNat_toNat_u32 hn]
  have e1 : (le32 (UInt32.ofNat (4 + n)) ++ (tagBytes t ++ body)).take 4
      = le32 (UInt32.ofNat (4 + n)) := by
    rw [List.take_append_of_le_length (by simp)]; rfl
  have e2 : (le32 (UInt32.ofNat (4 + n)) ++ (tagBytes t ++ body)).drop 4 = tagBytes t ++ body := by
    rw [List.drop_append_of_le_length (by simp)]; rfl
  have e3 : (tagBytes t ++ body).take 4 = tagBytes t := by
    rw [List.take_append_of_le_length (by simp [tagBytes_length])]; rfl
  have e4 : (tagBytes t ++ body).drop 4 = body := by
    rw [List.drop_append_of_le_length (by simp [tagBytes_length])]; rfl
  unfold next
  simp only [List.drop_zero]
  rw [if_neg (by simp)]
  simp only [e1, e2, e3, e4, hsz]
  rw [if_neg (by simp [tagBytes_length]), if_neg (by omega), hv.2, if_neg hv.1]
  rw [if_neg]
  · simp
  · rcases hw with h | h | h
    · simp [h]
    · simp [h]
    · simp [h]

/-- Reading the records in `bs` (with more data following) takes the loop state `s` to `s'`. -/
def Reads {σ : Type} (h : Tag → σ → R σ) (bs : Bytes) (s s' : σ) : Prop :=
  ∀ rest tag w raw fuel, rest ≠ [] → (bs ++ rest).length ≤ fuel →
    ∃ tag' raw' fuel', rest.length ≤ fuel' ∧
      loop h fuel s ⟨bs ++ rest, 0, tag, w, raw⟩ = loop h fuel' s' ⟨rest, 0, tag', w, raw'⟩

theorem Reads.nil {σ : Type} (h : Tag → σ → R σ) (s : σ) : Reads h [] s s := by
  intro rest tag w raw fuel _ hf
  exact ⟨tag, raw, fuel, by simpa using hf, rfl⟩

theorem Reads.append {σ : Type} {h : Tag → σ → R σ} {a b : Bytes} {s s' s'' : σ}
    (h1 : Reads h a s s') (h2 : Reads h b s' s'') : Reads h (a ++ b) s s'' := by
  intro rest tag w raw fuel hr hf
  rw [List.append_assoc] at hf ⊢
  obtain ⟨t1, r1, f1, hf1, e1⟩ := h1 (b ++ rest) tag w raw fuel (by simp [hr]) hf
  obtain ⟨t2, r2, f2, hf2, e2⟩ := h2 rest t1 w r1 f1 hr hf1
  exact ⟨t2, r2, f2, hf2, e1.trans e2⟩

/-- An arm that, run on a record with `n` announced payload bytes followed by `p ++ rest`,
consumes `p` and leaves nothing of the record. -/
def Step {σ : Type} (f : σ → R σ) (n : Nat) (p : Bytes) (s s' : σ) : Prop :=
  ∀ rest tag w raw, rest ≠ [] →
    f s ⟨p ++ rest, n, tag, w, raw⟩ = .ok (s', ⟨rest, 0, tag, w, raw⟩)

theorem Reads.recordT {σ : Type} {h : Tag → σ → R σ} {t : Tag} {n : Nat} {p : Bytes} {s s' : σ}
    (hv : ValidTag t) (hne : t ≠ ENDB) (hn : 4 + n < 2 ^ 32) 
    (hs : ∀ rest w raw, rest ≠ [] →
      h t s ⟨p ++ rest, n, t, w, raw⟩ = .ok (s', ⟨rest, 0, t, w, raw⟩)) :
    Reads h (le32 (UInt32.ofNat (4 + n)) ++ (tagBytes t ++ p)) s s' := by
  intro rest tag w raw fuel hr hf
  cases fuel with
  | zero => simp at hf
  | succ fuel =>
    refine ⟨t, tagBytes t, fuel, ?_, ?_⟩
    · simp at hf; omega
    · have hnext := next_record t hv n hn (p ++ rest) tag w raw (.inl hne)
      simp only [List.append_assoc]
      simp only [loop, hnext]
      have heof : (Rd.isEof ⟨p ++ rest, n, t, w, tagBytes t⟩) = false := by
        simp [Rd.isEof, hne, hr]
      rw [heof]
      simp only [Bool.false_eq_true, if_false]
      rw [hs rest w (tagBytes t) hr]

theorem Reads.record {σ : Type} {h : Tag → σ → R σ} {t : Tag} {n : Nat} {p : Bytes} {s s' : σ}
    (hv : ValidTag t) (hne : t ≠ ENDB) (hn : 4 + n < 2 ^ 32) (hs : Step (h t) n p s s') :
    Reads h (le32 (UInt32.ofNat (4 + n)) ++ (tagBytes t ++ p)) s s' :=
  Reads.recordT hv hne hn fun rest w raw hr => hs rest t w raw hr

/-- End of the stream. -/
theorem loop_endb {σ : Type} (h : Tag → σ → R σ) (s : σ) (rest : Bytes) (tag : Tag) (w : Bool)
    (raw : Bytes) (fuel : Nat) (hf : 0 < fuel) (hw : w = false ∨ rest = []) :
    loop h fuel s ⟨endbBytes ++ rest, 0, tag, w, raw⟩
      = .ok (s, ⟨rest, 0, ENDB, w, tagBytes ENDB⟩) := by
  cases fuel with
  | zero => omega
  | succ fuel =>
    have hnext := next_record ENDB (by decide) 0 (by decide) rest tag w raw
      (by rcases hw with h | h <;> simp [h])
    have e : endbBytes ++ rest = le32 (UInt32.ofNat (4 + 0)) ++ (tagBytes ENDB ++ rest) := by
      simp [endbBytes, WOp.bytes]
    rw [e]
    simp only [loop, hnext]
    simp [Rd.isEof]

/-- Reading a complete stream: records then ENDB. -/
theorem loop_stream {σ : Type} {h : Tag → σ → R σ} {bs : Bytes} {s s' : σ} (hr : Reads h bs s s')
    (rest : Bytes) (tag : Tag) (w : Bool) (raw : Bytes) (fuel : Nat)
    (hf : (bs ++ (endbBytes ++ rest)).length ≤ fuel) (hw : w = false ∨ rest = []) :
    loop h fuel s ⟨bs ++ (endbBytes ++ rest), 0, tag, w, raw⟩
      = .ok (s', ⟨rest, 0, ENDB, w, tagBytes ENDB⟩) := by
  obtain ⟨t1, r1, f1, hf1, e1⟩ := hr (endbBytes ++ rest) tag w raw fuel
    (by simp [endbBytes, WOp.bytes, le32]) hf
  rw [e1]
  apply loop_endb _ _ _ _ _ _ _ _ hw
  have : 0 < endbBytes.length := by decide
  simp at hf1; omega

/-! ### Reading what was written -/

/-- `ops` can be written, and reading what was written takes `s` to `s'`. -/
structure OReads {σ : Type} (hs : Handlers σ) (ops : List WOp) (s s' : σ) : Prop where
  good : ∀ op ∈ ops, op.Good
  reads : Reads (dispatch hs) (bytesOf ops) s s'

theorem OReads.nil {σ : Type} (hs : Handlers σ) (s : σ) : OReads hs [] s s :=
  ⟨by simp, Reads.nil _ s⟩

theorem OReads.append {σ : Type} {hs : Handlers σ} {a b : List WOp} {s s' s'' : σ}
    (h1 : OReads hs a s s') (h2 : OReads hs b s' s'') : OReads hs (a ++ b) s s'' := by
  refine ⟨?_, ?_⟩
  · intro op ho
    rcases List.mem_append.1 ho with h | h
    · exact h1.good op h
    · exact h2.good op h
  · rw [bytesOf_append]; exact h1.reads.append h2.reads

theorem dispatch_some {σ : Type} {hs : Handlers σ} {t : Tag} {f : σ → R σ}
    (hl : hs.lookup t = some f) : dispatch hs t = f := by
  funext s; simp [dispatch, hl]

theorem OReads.sized {σ : Type} {hs : Handlers σ} {t : Tag} {p : Bytes} {s s' : σ}
    {f : σ → R σ} (hl : hs.lookup t = some f) (hv : ValidTag t) (hne : t ≠ ENDB)
    (hn : 4 + p.length < 2 ^ 32) (hst : Step f p.length p s s') :
    OReads hs [.sized t p] s s' := by
  refine ⟨by simp [WOp.Good, hv.1, hn], ?_⟩
  simp only [bytesOf_cons, bytesOf_nil, List.append_nil, WOp.bytes]
  exact Reads.record hv hne hn (by rw [dispatch_some hl]; exact hst)

theorem OReads.unsized {σ : Type} {hs : Handlers σ} {t : Tag} {p : Bytes} {s s' : σ}
    {f : σ → R σ} (hl : hs.lookup t = some f) (hv : ValidTag t) (hne : t ≠ ENDB)
    (hst : Step f 0 p s s') : OReads hs [.unsized t p] s s' := by
  refine ⟨by simp [WOp.Good, hv.1], ?_⟩
  simp only [bytesOf_cons, bytesOf_nil, List.append_nil, WOp.bytes]
  exact Reads.record (n := 0) hv hne (by decide) (by rw [dispatch_some hl]; exact hst)

/-- An arm that just sets a field. -/
theorem Step.fld {σ α : Type} {g : R α} {p : Bytes} {v : α} (hg : RT g p v)
    (set : α → σ → σ) (s : σ) : Step (Vpin.fld g set) p.length p s (set v s) := by
  intro rest tag w raw _
  have := hg rest 0 tag w raw
  rw [Nat.add_zero] at this
  show (g >>= fun v => pure (set v s)) _ = _
  rw [R.bind_ok this]; rfl

/-- An arm with a getter that ignores the announced size. -/
theorem Step.fldN {σ α : Type} {g : R α} {p : Bytes} {v : α} (hg : RTN g p v)
    (set : α → σ → σ) (s : σ) : Step (Vpin.fld g set) 0 p s (set v s) := by
  intro rest tag w raw _
  have := hg rest 0 tag w raw
  show (g >>= fun v => pure (set v s)) _ = _
  rw [R.bind_ok this]; rfl

/-- A field record. -/
theorem OReads.fld {σ α : Type} {hs : Handlers σ} {t : Tag} {g : R α} {set : α → σ → σ}
    {p : Bytes} {v : α} {s : σ} (hl : hs.lookup t = some (Vpin.fld g set))
    (hg : RT g p v) (hn : 4 + p.length < 2 ^ 32)
    (hv : ValidTag t := by decide) (hne : t ≠ ENDB := by decide) :
    OReads hs [.sized t p] s (set v s) :=
  OReads.sized hl hv hne hn (Step.fld hg set s)

/-- An optional field: when absent, the state must already hold `none`. -/
theorem OReads.opt {σ α : Type} {hs : Handlers σ} {w : α → WOp} (v : Option α) {s : σ}
    (f : Option α → σ) (hsome : ∀ a, v = some a → OReads hs [w a] s (f (some a)))
    (hnone : f none = s) : OReads hs (opt w v) s (f v) := by
  cases v with
  | none => rw [hnone]; exact OReads.nil hs s
  | some a => exact hsome a rfl

/-- The state reached may be rewritten. -/
theorem OReads.congr {σ : Type} {hs : Handlers σ} {ops : List WOp} {s s' s'' : σ}
    (h : OReads hs ops s s') (e : s' = s'') : OReads hs ops s s'' := e ▸ h

/-- Writing and then reading back a structure. -/
theorem OReads.roundtrip {σ : Type} {hs : Handlers σ} {ops : List WOp} {s s' : σ}
    (h : OReads hs ops s s') :
    ∃ bs, writeBiff ops = .ok bs ∧ readStruct hs s bs = .ok s' := by
  refine ⟨_, writeBiff_ok ops h.good, ?_⟩
  have := loop_stream h.reads [] 0 true [] ((bytesOf ops ++ endbBytes).length + 1)
    (by simp) (.inr rfl)
  rw [List.append_nil] at this
  simp only [readStruct, readWith, Rd.new, this]

theorem nested_bytes (t : Tag) (ops : List WOp) :
    bytesOf (wNested t ops) = le32 4 ++ (tagBytes t ++ (bytesOf ops ++ endbBytes)) := by
  simp [wNested, WOp.bytes, endbBytes]

/-- A child reader reads a complete nested stream and leaves the rest. -/
theorem getChild_stream {σ : Type} {hs : Handlers σ} {ops : List WOp} {s s' : σ}
    (h : OReads hs ops s s') (rest : Bytes) (n : Nat) (tag : Tag) (w : Bool) (raw : Bytes) :
    getChild (readWith hs s) ⟨bytesOf ops ++ endbBytes ++ rest, n, tag, w, raw⟩
      = .ok (s', ⟨rest, 0, tag, w, raw⟩) := by
  have := loop_stream h.reads rest 0 false [] ((bytesOf ops ++ (endbBytes ++ rest)).length + 1)
    (by simp) (.inl rfl)
  rw [List.append_assoc]
  simp only [getChild, readWith, Rd.child, this]

/-- A nested record read through a child reader. -/
theorem OReads.nested {σ τ : Type} {hs : Handlers σ} {hs' : Handlers τ} {t : Tag}
    {ops : List WOp} {s : σ} {u u' : τ} {set : τ → σ → σ}
    (hl : hs.lookup t = some (Vpin.fld (getChild (readWith hs' u)) set))
    (h : OReads hs' ops u u')
    (hv : ValidTag t := by decide) (hne : t ≠ ENDB := by decide) :
    OReads hs (wNested t ops) s (set u' s) := by
  refine ⟨?_, ?_⟩
  · intro op ho
    simp only [wNested, List.mem_cons, List.mem_append, List.not_mem_nil, or_false] at ho
    rcases ho with rfl | ho | rfl
    · exact ⟨hv.1, by decide⟩
    · exact h.good op ho
    · exact ⟨by decide, by decide⟩
  · rw [nested_bytes]
    refine Reads.record (n := 0) hv hne (by decide) ?_
    intro rest tag w raw _
    rw [dispatch_some hl]
    have := getChild_stream h rest 0 tag w raw
    show (getChild (readWith hs' u) >>= fun v => pure (set v s)) _ = _
    rw [R.bind_ok this]; rfl

end Vpin
