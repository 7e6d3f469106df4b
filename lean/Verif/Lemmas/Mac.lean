import Verif.Model.Vpx
import Verif.Lemmas.TableInfo
import Verif.Props.GameData
import Verif.Props.Structs
/-
The checksum input of files this library writes.
-/
namespace Vpin
variable {L : CfbLib}

/-! ### Records and the hash -/

/-- A writer call whose record the hash loop gets past: sized, or the script. -/
def WOp.Hashed : WOp → Prop
  | .sized t _ => ValidTag t ∧ t ≠ ENDB ∧ t ≠ tag!"CODE"
  | .unsized t p => t = tag!"CODE" ∧ ∃ d : Bytes, d.length < 2 ^ 32 ∧ p = le32 (UInt32.ofNat d.length) ++ d
  | .fail => True

/-- what is hashed of it: the tag and the data, not the sizes -/
def WOp.hash : WOp → Bytes
  | .sized t p => tagBytes t ++ p
  | .unsized t p => tagBytes t ++ p.drop 4
  | .fail => []

def hashOf (ops : List WOp) : Bytes := ops.flatMap WOp.hash

theorem hashOf_cons (op : WOp) (ops : List WOp) : hashOf (op :: ops) = op.hash ++ hashOf ops := rfl

theorem hashLoop_end (acc : Bytes) (tag : Tag) (w : Bool) (raw : Bytes) (fuel : Nat) :
    hashLoop (fuel + 2) acc ⟨endbBytes, 0, tag, w, raw⟩ =
      if tag = ENDB then .ok (acc, ⟨endbBytes, 0, tag, w, raw⟩)
      else .ok (acc ++ tagBytes ENDB, ⟨[], 0, ENDB, w, tagBytes ENDB⟩) := by
  by_cases ht : tag = ENDB
  · subst ht
    rw [if_pos rfl]
    rfl
  · rw [if_neg ht]
    unfold hashLoop
    rw [R.bind_ok (r' := ⟨endbBytes, 0, tag, w, raw⟩) (v := ⟨endbBytes, 0, tag, w, raw⟩) rfl]
    have heof : (Rd.isEof ⟨endbBytes, 0, tag, w, raw⟩) = false := by
      simp [Rd.isEof, ht]; decide
    rw [heof]
    simp only [Bool.false_eq_true, if_false]
    have hnext := next_record ENDB (by decide) 0 (by decide) [] tag w raw (.inr (.inr rfl))
    have e : endbBytes = le32 (UInt32.ofNat (4 + 0)) ++ (tagBytes ENDB ++ []) := by
      simp [endbBytes, WOp.bytes]
    rw [e, R.bind_ok hnext]
    rfl

theorem hashLoop_step {op : WOp} (hg : op.Good) (hh : op.Hashed) (acc rest : Bytes) (tag : Tag)
    (ht : tag ≠ ENDB) (w : Bool) (raw : Bytes) (fuel : Nat) :
    ∃ t raw', t ≠ ENDB ∧ hashLoop (fuel + 1) acc ⟨op.bytes ++ rest, 0, tag, w, raw⟩ =
      hashLoop fuel (acc ++ op.hash) ⟨rest, 0, t, w, raw'⟩ := by
  have ne4 : ∀ a : UInt32, ∀ b : Bytes, le32 a ++ b ≠ [] := fun a b => by simp [le32]
  cases op with
  | fail => exact absurd hg (by simp [WOp.Good])
  | sized t p =>
    obtain ⟨hv, hne, hc⟩ := hh
    refine ⟨t, tagBytes t, hne, ?_⟩
    conv => lhs; unfold hashLoop
    rw [R.bind_ok (r' := _) (v := ⟨(WOp.sized t p).bytes ++ rest, 0, tag, w, raw⟩) rfl]
    have heof : (Rd.isEof ⟨(WOp.sized t p).bytes ++ rest, 0, tag, w, raw⟩) = false := by
      simp [Rd.isEof, ht, WOp.bytes, ne4]
    rw [heof]
    simp only [Bool.false_eq_true, if_false, WOp.bytes, List.append_assoc]
    have hnext := next_record t hv p.length hg.2 (p ++ rest) tag w raw (.inl hne)
    rw [R.bind_ok hnext]
    rw [R.bind_ok (r' := ⟨p ++ rest, p.length, t, w, tagBytes t⟩) (v := t) rfl]
    rw [if_neg hc]
    have hrec : getRecordDataWithTag ⟨p ++ rest, p.length, t, w, tagBytes t⟩
        = .ok (tagBytes t ++ p, ⟨rest, 0, t, w, tagBytes t⟩) := by
      unfold getRecordDataWithTag
      rw [if_neg]
      · simp
      · simp [tagBytes_length]
    rw [R.bind_ok hrec]
    rfl
  | unsized t p =>
    obtain ⟨rfl, d, hd, rfl⟩ := hh
    refine ⟨tag!"CODE", tagBytes tag!"CODE", by decide, ?_⟩
    conv => lhs; unfold hashLoop
    rw [R.bind_ok (r' := _) (v := ⟨(WOp.unsized tag!"CODE" (le32 (UInt32.ofNat d.length) ++ d)).bytes ++ rest, 0, tag, w, raw⟩) rfl]
    have heof : (Rd.isEof ⟨(WOp.unsized tag!"CODE" (le32 (UInt32.ofNat d.length) ++ d)).bytes ++ rest, 0, tag, w, raw⟩) = false := by
      simp [Rd.isEof, ht, WOp.bytes]
      simp [le32]
    rw [heof]
    simp only [Bool.false_eq_true, if_false, WOp.bytes, List.append_assoc]
    have hnext := next_record tag!"CODE" (by decide) 0 (by decide)
      (le32 (UInt32.ofNat d.length) ++ (d ++ rest)) tag w raw (.inl (by decide))
    have e4 : (4 : UInt32) = UInt32.ofNat (4 + 0) := rfl
    rw [e4, R.bind_ok hnext]
    rw [R.bind_ok (r' := ⟨_, 0, tag!"CODE", w, tagBytes tag!"CODE"⟩) (v := tag!"CODE") rfl]
    rw [if_pos rfl]
    rw [R.bind_ok (getU32N_rt (UInt32.ofNat d.length) (d ++ rest) 0 tag!"CODE" w (tagBytes tag!"CODE"))]
    rw [R.bind_ok (takeN_rt d _ (by rw [ofNat_toNat_u32 hd]) rest 0 tag!"CODE" w (tagBytes tag!"CODE"))]
    have e : (WOp.unsized tag!"CODE" (le32 (UInt32.ofNat d.length) ++ d)).hash
        = [0x43, 0x4f, 0x44, 0x45] ++ d := by
      show tagBytes tag!"CODE" ++ (le32 (UInt32.ofNat d.length) ++ d).drop 4 = _
      rw [List.drop_append_of_le_length (by simp)]
      rfl
    rw [e]

theorem hashLoop_ops (ops : List WOp) (hg : ∀ op ∈ ops, op.Good) (hh : ∀ op ∈ ops, op.Hashed) :
    ∀ (acc : Bytes) (tag : Tag) (w : Bool) (raw : Bytes) (fuel : Nat), tag ≠ ENDB →
      ∃ r, hashLoop (ops.length + fuel + 2) acc ⟨bytesOf ops ++ endbBytes, 0, tag, w, raw⟩ =
        .ok (acc ++ hashOf ops ++ tagBytes ENDB, r) := by
  induction ops with
  | nil =>
    intro acc tag w raw fuel ht
    refine ⟨⟨[], 0, ENDB, w, tagBytes ENDB⟩, ?_⟩
    have := hashLoop_end acc tag w raw fuel
    rw [if_neg ht] at this
    simpa [hashOf] using this
  | cons op ops ih =>
    intro acc tag w raw fuel ht
    obtain ⟨t, raw', ht', e⟩ := hashLoop_step (hg op (by simp)) (hh op (by simp)) acc
      (bytesOf ops ++ endbBytes) tag ht w raw (ops.length + fuel + 2)
    obtain ⟨r, hr⟩ := ih (fun o ho => hg o (by simp [ho])) (fun o ho => hh o (by simp [ho]))
      (acc ++ op.hash) t w raw' fuel ht'
    refine ⟨r, ?_⟩
    have e1 : (op :: ops).length + fuel + 2 = (ops.length + fuel + 2) + 1 := by
      simp only [List.length_cons]; omega
    rw [e1, bytesOf_cons, List.append_assoc, e, hr, hashOf_cons]
    simp

theorem ops_length_le (ops : List WOp) (hg : ∀ op ∈ ops, op.Good) : ops.length ≤ (bytesOf ops).length := by
  induction ops with
  | nil => simp
  | cons op ops ih =>
    have := ih fun o ho => hg o (by simp [ho])
    have h1 : 4 ≤ op.bytes.length := by
      have := hg op (by simp)
      cases op <;> simp_all [WOp.bytes, WOp.Good]
    simp only [bytesOf_cons, List.length_append, List.length_cons]; omega

/-- What is hashed of a stream of records: tags and data. -/
theorem hashBiff_ops {ops : List WOp} (hg : ∀ op ∈ ops, op.Good) (hh : ∀ op ∈ ops, op.Hashed) :
    hashBiff (bytesOf ops ++ endbBytes) = .ok (hashOf ops ++ tagBytes ENDB) := by
  have hl := ops_length_le ops hg
  have he : endbBytes.length = 8 := rfl
  obtain ⟨r, hr⟩ := hashLoop_ops ops hg hh [] 0 true [] ((bytesOf ops ++ endbBytes).length + 1 - ops.length - 2) (by decide)
  have e : ops.length + ((bytesOf ops ++ endbBytes).length + 1 - ops.length - 2) + 2
      = (bytesOf ops ++ endbBytes).length + 1 := by
    simp only [List.length_append]; omega
  rw [e] at hr
  unfold hashBiff
  show (match hashLoop _ [] ⟨bytesOf ops ++ endbBytes, 0, 0, true, []⟩ with
    | .ok (d, _) => Except.ok d | .error e => .error e) = _
  rw [hr]
  simp

/-! ### The names of custom info tags -/

theorem custLoop_tags (l : List Str) (hl : ∀ t ∈ l, Text t) :
    ∀ (acc : List Str) (tag : Tag) (w : Bool) (raw : Bytes) (fuel : Nat), tag ≠ ENDB →
      ∃ r, custLoop (l.length + fuel + 2) acc ⟨bytesOf (CustomInfoTags.ops l) ++ endbBytes, 0, tag, w, raw⟩ =
        .ok (acc ++ l, r) := by
  induction l with
  | nil =>
    intro acc tag w raw fuel ht
    refine ⟨⟨[], 0, ENDB, w, tagBytes ENDB⟩, ?_⟩
    have hz : ([] : List Str).length + fuel + 2 = (fuel + 1) + 1 := by simp
    have hb : bytesOf (CustomInfoTags.ops []) ++ endbBytes = endbBytes := rfl
    rw [hz, hb]
    unfold custLoop
    rw [R.bind_ok (r' := ⟨endbBytes, 0, tag, w, raw⟩) (v := ⟨endbBytes, 0, tag, w, raw⟩) rfl]
    have heof : (Rd.isEof ⟨endbBytes, 0, tag, w, raw⟩) = false := by
      simp [Rd.isEof, ht]; decide
    rw [heof]
    simp only [Bool.false_eq_true, if_false]
    have hnext := next_record ENDB (by decide) 0 (by decide) [] tag w raw (.inr (.inr rfl))
    have e : endbBytes = le32 (UInt32.ofNat (4 + 0)) ++ (tagBytes ENDB ++ []) := by
      simp [endbBytes, WOp.bytes]
    rw [e, R.bind_ok hnext, List.append_nil]
    rfl
  | cons t l ih =>
    intro acc tag w raw fuel ht
    obtain ⟨p, hp, hlen, hrt⟩ := pString_rt (hl t (by simp))
    have hsz : 4 + p.length < 2 ^ 32 := by
      have := (hl t (by simp)).2.2; rw [hlen]; omega
    obtain ⟨r, hr⟩ := ih (fun x hx => hl x (by simp [hx])) (acc ++ [t]) tag!"CUST" w
      (tagBytes tag!"CUST") fuel (by decide)
    refine ⟨r, ?_⟩
    have e1 : (t :: l).length + fuel + 2 = (l.length + fuel + 2) + 1 := by
      simp only [List.length_cons]; omega
    have eop : CustomInfoTags.ops (t :: l) = .sized tag!"CUST" p :: CustomInfoTags.ops l := by
      show wString tag!"CUST" t :: CustomInfoTags.ops l = _
      unfold wString
      rw [hp]; rfl
    rw [e1, eop, bytesOf_cons]
    conv => lhs; unfold custLoop
    rw [R.bind_ok (r' := _) (v := ⟨((WOp.sized tag!"CUST" p).bytes ++ bytesOf (CustomInfoTags.ops l)) ++ endbBytes, 0, tag, w, raw⟩) rfl]
    have heof : (Rd.isEof ⟨((WOp.sized tag!"CUST" p).bytes ++ bytesOf (CustomInfoTags.ops l)) ++ endbBytes, 0, tag, w, raw⟩) = false := by
      simp [Rd.isEof, ht, WOp.bytes]
      simp [le32]
    rw [heof]
    simp only [Bool.false_eq_true, if_false, WOp.bytes, List.append_assoc]
    have hnext := next_record tag!"CUST" (by decide) p.length hsz
      (p ++ (bytesOf (CustomInfoTags.ops l) ++ endbBytes)) tag w raw (.inl (by decide))
    rw [R.bind_ok hnext]
    rw [R.bind_ok (r' := ⟨p ++ _, p.length, tag!"CUST", w, tagBytes tag!"CUST"⟩) (v := tag!"CUST") rfl]
    rw [if_pos rfl]
    have := hrt (bytesOf (CustomInfoTags.ops l) ++ endbBytes) 0 tag!"CUST" w (tagBytes tag!"CUST")
    rw [Nat.add_zero] at this
    rw [R.bind_ok this, hr]
    simp

/-- The checksum sees the tag names that were written. -/
theorem custNames_tags {l : List Str} (hl : ∀ t ∈ l, Text t) :
    custNames (bytesOf (CustomInfoTags.ops l) ++ endbBytes) = .ok l := by
  have hle := ops_length_le (CustomInfoTags.ops l) (CustomInfoTags.reads hl).good
  have hle' : (CustomInfoTags.ops l).length = l.length := by simp [CustomInfoTags.ops]
  have he : endbBytes.length = 8 := rfl
  obtain ⟨r, hr⟩ := custLoop_tags l hl [] 0 true []
    ((bytesOf (CustomInfoTags.ops l) ++ endbBytes).length + 1 - l.length - 2) (by decide)
  have e : l.length + ((bytesOf (CustomInfoTags.ops l) ++ endbBytes).length + 1 - l.length - 2) + 2
      = (bytesOf (CustomInfoTags.ops l) ++ endbBytes).length + 1 := by
    simp only [List.length_append]; omega
  rw [e] at hr
  unfold custNames
  show (match custLoop _ [] ⟨bytesOf (CustomInfoTags.ops l) ++ endbBytes, 0, 0, true, []⟩ with
    | .ok (d, _) => Except.ok d | .error e => .error e) = _
  rw [hr]
  simp

/-! ### All records of the hashed streams -/

theorem Hashed.sizedR {t : Tag} (r : Res Bytes) (h : ValidTag t ∧ t ≠ ENDB ∧ t ≠ tag!"CODE") :
    (WOp.sizedR t r).Hashed := by
  cases r with
  | ok p => exact h
  | error e => trivial

theorem Hashed.quant8 {t : Tag} (x : F32) (h : ValidTag t ∧ t ≠ ENDB ∧ t ≠ tag!"CODE") :
    (wQuant8 t x).Hashed := by
  unfold wQuant8
  split
  · exact h
  · trivial

theorem Hashed.code (s : StringWithEncoding) : (wStringEncNoSize tag!"CODE" s).Hashed := by
  unfold wStringEncNoSize pStringEnc
  split
  · trivial
  · next d _ =>
    unfold pLenData
    split
    · next h => exact ⟨rfl, d, h, rfl⟩
    · trivial

theorem HT.nil : ∀ op ∈ List.flatten ([] : List (List WOp)), op.Hashed := by simp

theorem HT.cons {a : List WOp} {l : List (List WOp)} (ha : ∀ op ∈ a, op.Hashed)
    (hl : ∀ op ∈ List.flatten l, op.Hashed) : ∀ op ∈ List.flatten (a :: l), op.Hashed := by
  intro op h
  rw [List.flatten_cons, List.mem_append] at h
  exact h.elim (ha op) (hl op)

theorem HT.one {op : WOp} (h : op.Hashed) : ∀ o ∈ [op], o.Hashed := by
  intro o ho; rw [List.mem_singleton.1 ho]; exact h

theorem HT.opt {α : Type} {f : α → WOp} {o : Option α} (h : ∀ x, (f x).Hashed) :
    ∀ op ∈ opt f o, op.Hashed := by
  cases o with
  | none => intro op ho; cases ho
  | some x => exact HT.one (h x)

theorem HT.map {α : Type} {f : α → WOp} {l : List α} (h : ∀ x, (f x).Hashed) :
    ∀ op ∈ l.map f, op.Hashed := by
  intro op ho
  obtain ⟨x, -, rfl⟩ := List.mem_map.1 ho
  exact h x

/-- goes through a list of writer calls -/
macro "hashed_ops" : tactic => `(tactic| (
  repeat' (first
    | exact HT.nil
    | refine HT.cons ?_ ?_
    | refine HT.one ?_
    | refine HT.opt fun _ => ?_
    | refine HT.map fun _ => ?_
    | exact Hashed.code _
    | (show ValidTag _ ∧ _ ∧ _; decide)
    | exact Hashed.sizedR _ (by decide)
    | exact Hashed.quant8 _ (by decide))))

theorem Collection.hashed (s : Collection) : ∀ op ∈ s.ops, op.Hashed := by
  unfold Collection.ops; hashed_ops

theorem CustomInfoTags.hashed (l : List Str) : ∀ op ∈ CustomInfoTags.ops l, op.Hashed := by
  unfold CustomInfoTags.ops; hashed_ops

theorem GameData.hashed_A1 (s : GameData) : ∀ op ∈ s.opsA1, op.Hashed := by
  unfold GameData.opsA1; hashed_ops
theorem GameData.hashed_A2 (s : GameData) : ∀ op ∈ s.opsA2, op.Hashed := by
  unfold GameData.opsA2; hashed_ops
theorem GameData.hashed_B (s : GameData) : ∀ op ∈ s.opsB, op.Hashed := by
  unfold GameData.opsB; hashed_ops
theorem GameData.hashed_C (s : GameData) : ∀ op ∈ s.opsC, op.Hashed := by
  unfold GameData.opsC; hashed_ops
theorem GameData.hashed_D (s : GameData) : ∀ op ∈ s.opsD, op.Hashed := by
  unfold GameData.opsD; hashed_ops
theorem GameData.hashed_E (s : GameData) : ∀ op ∈ s.opsE, op.Hashed := by
  unfold GameData.opsE; hashed_ops
theorem GameData.hashed_F (s : GameData) : ∀ op ∈ s.opsF, op.Hashed := by
  unfold GameData.opsF materialOps probeOps; hashed_ops
theorem GameData.hashed_efssEarly (v : UInt32) (s : GameData) : ∀ op ∈ s.efssEarly v, op.Hashed := by
  unfold GameData.efssEarly
  split
  · hashed_ops
  · intro op h; cases h
theorem GameData.hashed_efssLate (v : UInt32) (s : GameData) : ∀ op ∈ s.efssLate v, op.Hashed := by
  unfold GameData.efssLate
  split
  · hashed_ops
  · intro op h; cases h

theorem GameData.hashed (v : UInt32) (s : GameData) : ∀ op ∈ s.ops v, op.Hashed := by
  unfold GameData.ops
  exact HT.cons s.hashed_A1 <| HT.cons (s.hashed_efssEarly v) <| HT.cons s.hashed_A2 <|
    HT.cons (s.hashed_efssLate v) <| HT.cons s.hashed_B <| HT.cons s.hashed_C <|
    HT.cons s.hashed_D <| HT.cons s.hashed_E <| HT.cons s.hashed_F HT.nil

end Vpin
