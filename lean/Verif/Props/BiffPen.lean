import Verif.Spec.BiffPen
import Verif.Props.BiffApi
/-
C93: the record writer as a public interface.
-/
namespace Vpin

/-- the writer holds what is said to be written -/
structure Holds (w : Pen) (p : Paper) : Prop where
  data : w.data = p.bytes
  closed : p.opened = none → w.tag = []
  opened : ∀ n d, p.opened = some (n, d) → w.tag = n ∧ n ≠ [] ∧ w.start = p.done.length ∧ w.size = 4 + d.length

/-- both panic, or both go on in step -/
def InStep : Res Pen → Res Paper → Prop
  | .ok w, .ok p => Holds w p
  | .error e, .error e' => e = e'
  | _, _ => False

theorem frame_patch (before name payload : Bytes) (s : UInt32) :
    patch (before ++ frame 0 name payload) before.length (le32 s) = before ++ frame s name payload := by
  have h := patch_middle before (le32 0) (le32 s) (name ++ List.replicate (4 - name.length) 0 ++ payload) rfl
  simp only [frame, List.append_assoc] at h ⊢
  exact h

theorem frame_record (name payload : Bytes) :
    frame (UInt32.ofNat (4 + payload.length)) name payload = recordBytes name payload := rfl

theorem holds_closed {w : Pen} {p : Paper} (h : Holds w p) (ho : p.opened = none) :
    w.data = p.done ∧ w.tag = [] := by
  refine ⟨?_, h.closed ho⟩
  rw [h.data]; unfold Paper.bytes; rw [ho]

theorem step_finish {w : Pen} {p : Paper} (h : Holds w p) :
    InStep w.endTag p.finish ∧ ∀ p', p.finish = .ok p' → p'.opened = none := by
  unfold Pen.endTag Paper.finish
  cases ho : p.opened with
  | none =>
    rw [if_pos (h.closed ho)]
    exact ⟨h, fun p' e => by cases e; exact ho⟩
  | some q =>
    obtain ⟨n, d⟩ := q
    obtain ⟨ht, hn, hs, hz⟩ := h.opened n d ho
    rw [if_neg (by rw [ht]; exact hn), hz]
    dsimp only
    by_cases hl : 4 + d.length < 2 ^ 32
    · rw [if_pos hl, if_pos hl]
      refine ⟨⟨?_, fun _ => rfl, nofun⟩, fun p' e => by cases e; rfl⟩
      show patch w.data w.start _ = p.done ++ recordBytes n d
      rw [h.data, hs]
      unfold Paper.bytes
      rw [ho]
      exact frame_patch _ _ _ _
    · rw [if_neg hl, if_neg hl]
      exact ⟨rfl, nofun⟩

theorem step_finishShort {w : Pen} {p : Paper} (h : Holds w p) : Holds w.endTagNoSize p.finishShort := by
  unfold Pen.endTagNoSize Paper.finishShort
  cases ho : p.opened with
  | none => rw [if_pos (h.closed ho)]; exact h
  | some q =>
    obtain ⟨n, d⟩ := q
    obtain ⟨ht, hn, hs, hz⟩ := h.opened n d ho
    rw [if_neg (by rw [ht]; exact hn)]
    refine ⟨?_, fun _ => rfl, nofun⟩
    show patch w.data w.start _ = p.done ++ frame 4 n d
    rw [h.data, hs]
    unfold Paper.bytes
    rw [ho]
    exact frame_patch _ _ _ _

theorem step_start {w : Pen} {p : Paper} (h : Holds w p) (t : Bytes) : InStep (w.newTag t) (p.start t) := by
  unfold Pen.newTag Paper.start
  obtain ⟨h1, h2⟩ := step_finish h
  cases hw : w.endTag with
  | error e =>
    cases hp : p.finish with
    | error e' => rw [hw, hp] at h1; exact h1
    | ok p' => rw [hw, hp] at h1; exact h1.elim
  | ok w' =>
    cases hp : p.finish with
    | error e' => rw [hw, hp] at h1; exact h1.elim
    | ok p' =>
      rw [hw, hp] at h1
      obtain ⟨hd, htag⟩ := holds_closed h1 (h2 p' hp)
      dsimp only
      by_cases hl : 4 < t.length
      · rw [if_pos hl, if_pos hl]; rfl
      · rw [if_neg hl, if_neg hl]
        by_cases h0 : t = []
        · rw [if_pos h0]
          subst h0
          refine ⟨?_, fun _ => rfl, nofun⟩
          show w'.data ++ [0, 0, 0, 0] ++ _ = p'.done ++ frame 0 [] []
          rw [hd, List.append_assoc]
          rfl
        · rw [if_neg h0]
          refine ⟨?_, nofun, ?_⟩
          · show w'.data ++ [0, 0, 0, 0] ++ _ = p'.done ++ frame 0 t []
            rw [hd, List.append_assoc]
            unfold frame
            rw [List.append_nil]
            rfl
          · intro n d e
            cases e
            exact ⟨rfl, h0, by rw [hd], rfl⟩

theorem step_put {w : Pen} {p : Paper} (h : Holds w p) (d : Bytes) :
    Holds { w with data := w.data ++ d, size := w.size + d.length } (p.write d) := by
  unfold Paper.write
  cases ho : p.opened with
  | none =>
    obtain ⟨hd, ht⟩ := holds_closed h ho
    exact ⟨by show w.data ++ d = _; rw [hd]; rfl, fun _ => ht, nofun⟩
  | some q =>
    obtain ⟨n, pl⟩ := q
    obtain ⟨ht, hn, hs, hz⟩ := h.opened n pl ho
    refine ⟨?_, nofun, ?_⟩
    · show w.data ++ d = p.done ++ frame 0 n (pl ++ d)
      rw [h.data]
      unfold Paper.bytes frame
      rw [ho]
      simp only [frame, List.append_assoc]
    · intro n' d' e
      cases e
      refine ⟨ht, hn, hs, ?_⟩
      show w.size + d.length = 4 + (pl ++ d).length
      rw [hz, List.length_append]
      omega

theorem step_call {w : Pen} {p : Paper} (h : Holds w p) (c : Write) : InStep (c.run w) (c.effect p) := by
  cases c with
  | newTag t => exact step_start h t
  | put v =>
    show InStep (w.put v) (match v.bytes with
      | .error e => .error e
      | .ok d => .ok (p.write d))
    unfold Pen.put
    cases v.bytes with
    | error e => rfl
    | ok d => exact step_put h d
  | endTag => exact (step_finish h).1
  | endTagNoSize => exact step_finishShort h
  | close e =>
    cases e with
    | false => exact (step_finish h).1
    | true =>
      show InStep (w.close true) _
      unfold Pen.close Write.effect
      rw [if_pos rfl]
      have h1 := step_start h endbName
      have he : w.newTag [0x45, 0x4e, 0x44, 0x42] = w.newTag endbName := rfl
      rw [he]
      cases hw : w.newTag endbName with
      | error e =>
        cases hp : p.start endbName with
        | error e' => rw [hw, hp] at h1; exact h1
        | ok p' => rw [hw, hp] at h1; exact h1.elim
      | ok w' =>
        cases hp : p.start endbName with
        | error e' => rw [hw, hp] at h1; exact h1.elim
        | ok p' => rw [hw, hp] at h1; exact (step_finish h1).1

theorem step_calls : ∀ (cs : List Write) {w : Pen} {p : Paper}, Holds w p → InStep (runWrites w cs) (effects p cs)
  | [], _, _, h => h
  | c :: cs, w, p, h => by
    have h1 := step_call h c
    unfold runWrites effects
    cases hw : c.run w with
    | error e =>
      cases hp : c.effect p with
      | error e' => rw [hw, hp] at h1; exact h1
      | ok p' => rw [hw, hp] at h1; exact h1.elim
    | ok w' =>
      cases hp : c.effect p with
      | error e' => rw [hw, hp] at h1; exact h1.elim
      | ok p' => rw [hw, hp] at h1; exact step_calls cs h1

/-- C93: after any history of calls, in any order, the data of a new writer is what the specification
says: the records that were ended, each with its name, its size and the bytes written in it, then the
record that is still open; and the history panics exactly when the specification says so (a name of
more than four bytes, a record of 2^32 bytes or more, a text that cannot be written). -/
theorem C93_written (cs : List Write) :
    (runWrites {} cs).map Pen.data = (effects {} cs).map Paper.bytes := by
  have h := step_calls cs (w := {}) (p := {}) ⟨rfl, fun _ => rfl, nofun⟩
  cases hw : runWrites {} cs with
  | error e =>
    cases hp : effects {} cs with
    | error e' => rw [hw, hp] at h; exact congrArg Except.error h
    | ok p' => rw [hw, hp] at h; exact h.elim
  | ok w' =>
    cases hp : effects {} cs with
    | error e' => rw [hw, hp] at h; exact h.elim
    | ok p' => rw [hw, hp] at h; exact congrArg Except.ok h.data

/-- a record ended by the start of the next one, a record without its size, and bytes outside of any -/
def someWrites : List Write :=
  [.newTag [0x41], .put (.u16 5), .newTag [0x42, 0x43], .put (.bool true), .endTagNoSize, .put (.u8 7), .close true]

example : (effects {} someWrites).map Paper.bytes = .ok (recordBytes [0x41] [5, 0] ++
    frame 4 [0x42, 0x43] [1, 0, 0, 0] ++ [7] ++ recordBytes endbName []) ∧
    (effects {} [.newTag [1, 2, 3, 4, 5]]).map Paper.bytes = .error .panic :=
  ⟨by decide +kernel, by decide +kernel⟩

/-! ## Values -/

theorem effects_cons (c : Write) (cs : List Write) (p : Paper) : effects p (c :: cs) = match c.effect p with
    | .error e => .error e
    | .ok p => effects p cs := rfl

theorem effect_put (v : WVal) (p : Paper) : (Write.put v).effect p = match v.bytes with
    | .error e => .error e
    | .ok d => .ok (p.write d) := rfl

theorem effects_append : ∀ (a b : List Write) (p : Paper), effects p (a ++ b) = match effects p a with
    | .error e => .error e
    | .ok q => effects q b
  | [], _, _ => rfl
  | c :: a, b, p => by
    rw [List.cons_append, effects_cons, effects_cons]
    cases c.effect p with
    | error e => rfl
    | ok q => exact effects_append a b q

theorem effects_puts : ∀ (vs : List WVal) (d : Bytes) (done name payload : Bytes), bytesOfAll vs = .ok d →
    effects { done := done, opened := some (name, payload) } (vs.map .put)
      = .ok { done := done, opened := some (name, payload ++ d) }
  | [], d, done, name, payload, h => by cases h; simp [effects]
  | v :: vs, d, done, name, payload, h => by
    unfold bytesOfAll at h
    cases hv : v.bytes with
    | error e => rw [hv] at h; cases h
    | ok x =>
      cases hvs : bytesOfAll vs with
      | error e => rw [hv, hvs] at h; cases h
      | ok y =>
        rw [hv, hvs] at h
        cases h
        rw [List.map_cons, effects_cons, effect_put, hv]
        dsimp only
        unfold Paper.write
        dsimp only
        rw [effects_puts vs y done name (payload ++ x) hvs, List.append_assoc]

theorem parseReads_cons (r : Read) (rs : List Read) (d : Bytes) : parseReads (r :: rs) d
    = match r.parse d with
      | none => none
      | some (o, d) =>
        match parseReads rs d with
        | none => none
        | some (os, rest) => some (o :: os, rest) := rfl

theorem parseReads_append : ∀ (a b : List Read) (d : Bytes), parseReads (a ++ b) d
    = match parseReads a d with
      | none => none
      | some (os, d) =>
        match parseReads b d with
        | none => none
        | some (os', rest) => some (os ++ os', rest)
  | [], b, d => by
    rw [List.nil_append, show parseReads [] d = some ([], d) from rfl]
    dsimp only
    cases parseReads b d <;> rfl
  | r :: a, b, d => by
    rw [List.cons_append, parseReads_cons, parseReads_cons]
    cases r.parse d with
    | none => rfl
    | some p =>
      dsimp only
      rw [parseReads_append a b p.2]
      cases parseReads a p.2 with
      | none => rfl
      | some q =>
        dsimp only
        cases parseReads b q.2 <;> rfl

theorem cutAt_append {n : Nat} {x : Bytes} (h : x.length = n) (rest : Bytes) : cutAt n (x ++ rest) = some (x, rest) := by
  unfold cutAt
  rw [if_pos (by simp; omega), ← h, List.take_left, List.drop_left]

theorem fixedSize_append {α : Type} {n : Nat} {x : Bytes} (h : x.length = n) (f : Bytes → α) (rest : Bytes) :
    fixedSize n f (x ++ rest) = some (f x, rest) := by
  unfold fixedSize
  rw [cutAt_append h]

theorem prefixed_append {α : Type} {f : Bytes → Option α} {x rest : Bytes} {v : α} (hl : x.length < 2 ^ 32)
    (hv : f x = some v) :
    prefixed f (le32 (UInt32.ofNat x.length) ++ x ++ rest) = some (v, rest) := by
  unfold prefixed
  rw [List.append_assoc, cutAt_append (le32_length _)]
  dsimp only
  rw [leNat_le32, ofNat_toNat_u32 hl, cutAt_append rfl]
  dsimp only
  rw [hv]

theorem zeroEnded_encoded {s : Str} {d : Bytes} (h : encodeLatin1 s = .ok d) (h0 : 0 ∉ d) : zeroEnded d = s := by
  unfold zeroEnded
  rw [← cutNul_takeWhile, cutNul_eq_self h0, decodeLatin1_of_encode h]

theorem one_back {e : Elem} {d : Bytes} {v : Scalar} (h : ∀ rest, e.parse (d ++ rest) = some (v, rest)) (rest : Bytes) :
    parseReads [.one e] (d ++ rest) = some ([.one v], rest) := by
  rw [parseReads_cons]
  unfold Read.parse
  dsimp only
  rw [h]
  rfl

/-- a length and the bytes -/
theorem lenData_back {d : Bytes} (h : d.length < 2 ^ 32) (rest : Bytes) :
    parseReads [.one .u32, .bytes d.length] (le32 (UInt32.ofNat d.length) ++ d ++ rest)
      = some ([.one (.u32 (UInt32.ofNat d.length)), .bytes d], rest) := by
  have h1 := one_back (e := .u32) (d := le32 (UInt32.ofNat d.length)) (v := .u32 (UInt32.ofNat d.length))
    (fun rest => by
      dsimp only [Elem.parse]
      rw [fixedSize_append (le32_length _), leNat_le32, ofNat_toNat_u32 h]) (d ++ rest)
  rw [List.append_assoc, show [Read.one .u32, .bytes d.length] = [.one .u32] ++ [.bytes d.length] from rfl,
    parseReads_append, h1]
  dsimp only
  rw [parseReads_cons]
  unfold Read.parse
  dsimp only
  rw [cutAt_append rfl]
  rfl

theorem text_back {s : Str} {d : Bytes} (h : encodeLatin1 s = .ok d) (h0 : 0 ∉ d) (hl : d.length < 2 ^ 32) (rest : Bytes) :
    parseReads [.one .string] (le32 (UInt32.ofNat d.length) ++ d ++ rest) = some ([.one (.text s)], rest) :=
  one_back (fun rest => by
    dsimp only [Elem.parse]
    exact prefixed_append hl (by rw [zeroEnded_encoded h h0])) rest

theorem value_back (v : WVal) (h : v.Fits) : ∃ d, v.bytes = .ok d ∧
    ∀ rest, parseReads v.calls (d ++ rest) = some (v.returned, rest) := by
  cases v with
  | u8 x =>
    refine ⟨[x], rfl, one_back fun rest => ?_⟩
    dsimp only [Elem.parse]
    rw [fixedSize_append (x := [x]) (n := 1) rfl]
    simp [leNat]
  | i8 x =>
    refine ⟨[x.toUInt8], rfl, one_back fun rest => ?_⟩
    dsimp only [Elem.parse]
    rw [fixedSize_append (x := [x.toUInt8]) (n := 1) rfl]
    simp [leNat]
  | u16 x =>
    refine ⟨le16 x, rfl, one_back fun rest => ?_⟩
    dsimp only [Elem.parse]
    rw [fixedSize_append (le16_length _), leNat_le16]
    simp
  | i16 x =>
    refine ⟨le16 x.toUInt16, rfl, one_back fun rest => ?_⟩
    dsimp only [Elem.parse]
    rw [fixedSize_append (le16_length _), leNat_le16]
    simp
  | u32 x =>
    refine ⟨le32 x, rfl, one_back fun rest => ?_⟩
    dsimp only [Elem.parse]
    rw [fixedSize_append (le32_length _), leNat_le32]
    simp
  | i32 x =>
    refine ⟨le32 x.toUInt32, rfl, one_back fun rest => ?_⟩
    dsimp only [Elem.parse]
    rw [fixedSize_append (le32_length _), leNat_le32]
    simp
  | f32 x =>
    refine ⟨le32 x, rfl, one_back fun rest => ?_⟩
    dsimp only [Elem.parse]
    rw [fixedSize_append (le32_length _), leNat_le32]
    simp
  | bool x =>
    refine ⟨pBool x, rfl, one_back fun rest => ?_⟩
    dsimp only [Elem.parse]
    rw [fixedSize_append (x := pBool x) (n := 4) rfl]
    cases x <;> rfl
  | short s =>
    obtain ⟨h1, h2, h3⟩ := h
    obtain ⟨d, hd⟩ := (encodeLatin1_ok_iff s).2 h1
    have hlen := encodeLatin1_length hd
    refine ⟨UInt8.ofNat d.length :: d, ?_, fun rest => ?_⟩
    · show pShortString s = _
      unfold pShortString
      rw [hd]
      dsimp only
      rw [if_pos (by omega)]
    · have hz := zeroEnded_encoded hd (nulFree_encode hd h2)
      have h1 := one_back (e := .u8) (d := [UInt8.ofNat s.length]) (v := .u8 (UInt8.ofNat s.length))
        (fun rest => by
          dsimp only [Elem.parse]
          rw [fixedSize_append (x := [UInt8.ofNat s.length]) (n := 1) rfl]
          simp [leNat, Nat.mod_eq_of_lt h3]) (d ++ rest)
      show parseReads ([.one .u8] ++ [.str s.length]) ([UInt8.ofNat d.length] ++ (d ++ rest)) = _
      rw [hlen, parseReads_append, h1]
      dsimp only
      rw [parseReads_cons]
      unfold Read.parse
      dsimp only
      rw [cutAt_append hlen]
      dsimp only [Option.map_some]
      rw [hz]
      rfl
  | string s =>
    obtain ⟨d, hd, hl, h0⟩ := Text.enc h
    have hlt : d.length < 2 ^ 32 := by rw [hl]; have := h.2.2; omega
    refine ⟨le32 (UInt32.ofNat d.length) ++ d, ?_, text_back hd h0 hlt⟩
    show pString s = _
    simp only [pString, hd, pLenData, hlt, if_true]
  | encoded s =>
    obtain ⟨d, hd, hl⟩ := h
    refine ⟨le32 (UInt32.ofNat d.length) ++ d, ?_, fun rest => ?_⟩
    · show pStringEnc s = _
      unfold pStringEnc pLenData
      rw [hd]
      dsimp only
      rw [if_pos hl]
    · unfold WVal.calls WVal.returned
      dsimp only
      rw [hd]
      exact lenData_back hl rest
  | emptyZero s =>
    by_cases hs : s = []
    · subst hs
      refine ⟨le32 1 ++ [0], rfl, one_back fun rest => ?_⟩
      dsimp only [Elem.parse]
      exact prefixed_append (x := [0]) (by decide) rfl
    · obtain ⟨d, hd, hl, h0⟩ := Text.enc h
      have hlt : d.length < 2 ^ 32 := by rw [hl]; have := h.2.2; omega
      refine ⟨le32 (UInt32.ofNat d.length) ++ d, ?_, text_back hd h0 hlt⟩
      show pStringEmptyZero s = _
      have he : s.isEmpty = false := by cases s <;> simp_all
      simp only [pStringEmptyZero, he, pString, hd, pLenData, hlt, if_true]
      rfl
  | wide s =>
    have h' : (encodeUtf16le s).length < 2 ^ 32 := by
      have : 8 + _ < _ := h
      rw [encodeUtf16le_utf16Len]; omega
    refine ⟨le32 (UInt32.ofNat (encodeUtf16le s).length) ++ encodeUtf16le s, ?_, one_back fun rest => ?_⟩
    · show pWide s = _
      simp only [pWide, pLenData, h', if_true]
    · dsimp only [Elem.parse]
      exact prefixed_append h' (by rw [decode_encode_utf16le])
  | lenData d =>
    have hl : d.length < 2 ^ 32 := h
    refine ⟨le32 (UInt32.ofNat d.length) ++ d, ?_, lenData_back hl⟩
    show pLenData d = _
    unfold pLenData
    rw [if_pos hl]
  | data d =>
    refine ⟨d, rfl, fun rest => ?_⟩
    show parseReads [.bytes d.length] _ = _
    rw [parseReads_cons]
    unfold Read.parse
    dsimp only
    rw [cutAt_append rfl]
    rfl

theorem values_back : ∀ vs : List WVal, (∀ v ∈ vs, v.Fits) → ∃ d, bytesOfAll vs = .ok d ∧
    parseReads (vs.flatMap WVal.calls) d = some (vs.flatMap WVal.returned, [])
  | [], _ => ⟨[], rfl, rfl⟩
  | v :: vs, h => by
    obtain ⟨d, hd, hp⟩ := value_back v (h v (by simp))
    obtain ⟨ds, hds, hps⟩ := values_back vs fun v hv => h v (by simp [hv])
    refine ⟨d ++ ds, ?_, ?_⟩
    · unfold bytesOfAll; rw [hd, hds]
    · rw [List.flatMap_cons, List.flatMap_cons, parseReads_append, hp ds]
      dsimp only
      rw [hps]

theorem effects_records (payload : Bytes × List WVal → Bytes) : ∀ (rs : List (Bytes × List WVal)) (done : Bytes),
    (∀ r ∈ rs, RecordName r.1 ∧ bytesOfAll r.2 = .ok (payload r) ∧ 4 + (payload r).length < 2 ^ 32) →
    effects { done := done } (rs.flatMap fun r => .newTag r.1 :: (r.2.map .put ++ [.endTag]))
      = .ok { done := done ++ rs.flatMap fun r => recordBytes r.1 (payload r) }
  | [], done, _ => by simp [effects]
  | r :: rs, done, h => by
    obtain ⟨hn, hb, hl⟩ := h r (by simp)
    have hne : r.1 ≠ [] := fun e => by have := hn.1; rw [e] at this; simp at this
    rw [List.flatMap_cons, effects_append]
    have h1 : effects { done := done } (.newTag r.1 :: (r.2.map .put ++ [.endTag]))
        = .ok { done := done ++ recordBytes r.1 (payload r) } := by
      rw [effects_cons, show (Write.newTag r.1).effect { done := done } = Paper.start { done := done } r.1 from rfl]
      unfold Paper.start Paper.finish
      dsimp only
      rw [if_neg (by have := hn.2.1; omega), if_neg hne]
      dsimp only
      rw [effects_append, effects_puts r.2 (payload r) done r.1 [] hb]
      dsimp only [effects, Write.effect, Paper.finish]
      rw [List.nil_append, if_pos hl]
    rw [h1]
    dsimp only
    rw [effects_records payload rs _ fun r hr => h r (by simp [hr]), List.flatMap_cons, List.append_assoc]

/-- C93: records of values, written with the methods of the writer and closed, are read back with the
methods of the reader: the names in order, every value as it was written, and then the end. -/
theorem C93_values (rs : List (Bytes × List WVal))
    (hn : ∀ r ∈ rs, RecordName r.1 ∧ r.1 ≠ endbName ∧ (∀ v ∈ r.2, v.Fits) ∧
      ∀ d, bytesOfAll r.2 = .ok d → 4 + d.length < 2 ^ 32) :
    ∃ w, runWrites {} (writeRecords rs) = .ok w ∧
      (w.data.length < 2 ^ 63 → ∃ c,
        runRecords .debug (rs.map (fun r => r.2.flatMap WVal.calls) ++ [[]]) (Cursor.new w.data)
          = .ok (rs.map (fun r => (some (decodeLatin1 r.1), r.2.flatMap WVal.returned)) ++ [(none, [])], c) ∧
        c.pos = w.data.length ∧ c.left = 0) := by
  have hx : ∀ r : Bytes × List WVal, ∃ d, r ∈ rs → bytesOfAll r.2 = .ok d ∧
      parseReads (r.2.flatMap WVal.calls) d = some (r.2.flatMap WVal.returned, []) := by
    intro r
    by_cases hr : r ∈ rs
    · obtain ⟨d, hd⟩ := values_back r.2 (hn r hr).2.2.1
      exact ⟨d, fun _ => hd⟩
    · exact ⟨[], fun h => absurd h hr⟩
  obtain ⟨payload, hpay⟩ := Classical.axiomOfChoice hx
  have hsize : ∀ r ∈ rs, 4 + (payload r).length < 2 ^ 32 := fun r hr => (hn r hr).2.2.2 _ (hpay r hr).1
  have hrec := effects_records payload rs [] fun r hr => ⟨(hn r hr).1, (hpay r hr).1, hsize r hr⟩
  let vs : List Visit := rs.map fun r => ⟨r.1, payload r, r.2.flatMap WVal.calls⟩
  have heff : effects {} (writeRecords rs)
      = .ok { done := streamBytes (vs.map fun v => (v.name, v.payload)) } := by
    unfold writeRecords
    rw [effects_append]
    rw [show (({} : Paper)) = { done := [] } from rfl, hrec]
    dsimp only [effects, Write.effect, Paper.start, Paper.finish]
    rw [if_neg (by decide), if_neg (by decide)]
    dsimp only
    rw [if_pos (by decide)]
    congr 2
    simp only [streamBytes, vs, List.map_map, List.flatMap_map, List.nil_append]
    rfl
  have hw := C93_written (writeRecords rs)
  rw [heff] at hw
  cases hrun : runWrites {} (writeRecords rs) with
  | error e => rw [hrun] at hw; cases hw
  | ok w =>
    rw [hrun] at hw
    have hdata : w.data = streamBytes (vs.map fun v => (v.name, v.payload)) := Except.ok.inj hw
    refine ⟨w, rfl, fun hlen => ?_⟩
    rw [hdata] at hlen
    obtain ⟨c, hc, hpos, hleft, _⟩ := C93_stream vs
      (fun v => match parseReads v.calls v.payload with | some (os, _) => os | none => [])
      (fun v hv => by
        obtain ⟨r, hr, rfl⟩ := List.mem_map.1 hv
        exact ⟨(hn r hr).1, (hn r hr).2.1, hsize r hr⟩)
      hlen
      (fun v hv => by
        obtain ⟨r, hr, rfl⟩ := List.mem_map.1 hv
        dsimp only
        rw [(hpay r hr).2]
        rfl)
    refine ⟨c, ?_, ?_, hleft⟩
    · rw [hdata]
      have e1 : vs.map (·.calls) = rs.map fun r => r.2.flatMap WVal.calls := by
        simp only [vs, List.map_map]; rfl
      rw [← e1, hc]
      congr 3
      simp only [vs, List.map_map]
      apply List.map_congr_left
      intro r hr
      dsimp only [Function.comp]
      rw [(hpay r hr).2]
    · rw [hpos, hdata]

/-- two records of values -/
def someValues : List (Bytes × List WVal) :=
  [([0x41, 0x42], [.i32 (-2), .string "é".toList, .wide "€".toList]), ([0x43], [.short "abc".toList, .emptyZero []])]

example : (∀ r ∈ someValues, RecordName r.1 ∧ r.1 ≠ endbName ∧ (∀ v ∈ r.2, v.Fits) ∧
    ∀ d, bytesOfAll r.2 = .ok d → 4 + d.length < 2 ^ 32) := by
  intro r hr
  simp only [someValues, List.mem_cons, List.not_mem_nil, or_false] at hr
  rcases hr with rfl | rfl
  · refine ⟨by decide, by decide, ?_, ?_⟩
    · intro v hv
      simp only [List.mem_cons, List.not_mem_nil, or_false] at hv
      rcases hv with rfl | rfl | rfl
      · trivial
      · exact ⟨by unfold IsLatin1; decide, by unfold NulFree; decide, by decide⟩
      · show 8 + _ < _; decide
    · intro d hd
      cases hd
      decide
  · refine ⟨by decide, by decide, ?_, ?_⟩
    · intro v hv
      simp only [List.mem_cons, List.not_mem_nil, or_false] at hv
      rcases hv with rfl | rfl
      · exact ⟨by unfold IsLatin1; decide, by unfold NulFree; decide, by decide⟩
      · exact ⟨by unfold IsLatin1; decide, by unfold NulFree; decide, by decide⟩
    · intro d hd
      cases hd
      decide

end Vpin
