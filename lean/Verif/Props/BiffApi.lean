import Verif.Lemmas.BiffNext
import Verif.Lemmas.Records
/-
C93: the record reader as a public interface.
-/
namespace Vpin
open Cursor

/-- C93: any history of counted calls in a record that lies inside the data returns what the
specification says of the unread bytes of the record, and only of them: the reader is then as many
bytes further as were used, and the count of unread bytes is right. If the bytes do not suffice (or
are no text), the history ends with a panic. (Overflow checked.) -/
theorem C93_record (c : Cursor) (hc : c.Inside) (rs : List Read) :
    match parseReads rs (unread c) with
    | none => runReads .debug rs c = .error .panic
    | some (os, rest) => ∃ k, k ≤ c.left ∧ rest = (unread c).drop k ∧
        runReads .debug rs c = .ok (os, { c with pos := c.pos + k, left := c.left - k }) := by
  have h := mirrors_reads rs c hc
  cases hp : parseReads rs (unread c) with
  | none => rw [hp] at h; exact h
  | some p => rw [hp] at h; exact h

/-- a record "AB" of six bytes, read up to its first byte, and the bytes of the next record after it -/
def insideRecord : Cursor :=
  { data := recordBytes [0x41, 0x42] [7, 1, 0, 0, 0, 0x58] ++ recordBytes [0x43] [9], pos := 8, left := 6
    tag := "AB".toList }

example : insideRecord.Inside ∧
    parseReads [.one .u8, .one .string, .skipTag] (unread insideRecord)
      = some ([.one (.u8 7), .one (.text "X".toList), .skipped], []) ∧
    parseReads [.one .u32, .one .u32] (unread insideRecord) = none :=
  ⟨⟨by decide, by decide⟩, by decide +kernel, by decide +kernel⟩

example : runReads .debug [.one .u8, .one .string] insideRecord
      = .ok ([.one (.u8 7), .one (.text "X".toList)], { insideRecord with pos := 14, left := 0 }) := by
  decide +kernel

/-- Where overflow is not checked, C93_record is false: a call that asks for more than is left of the
record returns bytes of the record after it. -/
theorem C93_unchecked_counterexample : ∃ c : Cursor, c.Inside ∧
    parseReads [.skip 4, .one .u32] (unread c) = none ∧
    ∃ c', runReads .release [.skip 4, .one .u32] c = .ok ([.skipped, .one (.u32 0x00055800)], c') ∧
      c'.left = 2 ^ 64 - 2 :=
  ⟨insideRecord, ⟨by decide, by decide⟩, by decide +kernel,
    { insideRecord with pos := 16, left := 2 ^ 64 - 2 }, by decide +kernel, rfl⟩

/-- C93: whatever was read of a record by counted calls, and whether overflow is checked or not, the
next record is found at the same place, with the same result. -/
theorem C93_resync (b : Build) (c : Cursor) (hp : c.pos < 2 ^ 64) (hl : c.left < 2 ^ 64)
    (rs : List Read) (hs : ∀ r ∈ rs, r.Sized) (os : List Out) (c' : Cursor)
    (h : runReads b rs c = .ok (os, c')) : Cursor.next b c' = Cursor.next b c :=
  (drifts_reads b rs hs c os c' ⟨hp, hl⟩ h).same_next ⟨hp, hl⟩

example : ∃ c', runReads .release [.skip 4, .one .u32] insideRecord = .ok ([.skipped, .one (.u32 0x00055800)], c') ∧
    Cursor.next .release c' = .ok (some "C".toList, { insideRecord with pos := 22, left := 1, tag := "C".toList }) :=
  ⟨{ insideRecord with pos := 16, left := 2 ^ 64 - 2 }, by decide +kernel, by decide +kernel⟩

/-- C93_resync is only about calls that count: after one of the methods named
`.._no_remaining_update` the next record is looked for too far on (here: beyond it). -/
theorem C93_uncounted_counterexample : ∃ (c c' : Cursor) (v : UInt32), c.Inside ∧
    Cursor.next .debug c = .ok (some "C".toList, { c with pos := 22, left := 1, tag := "C".toList }) ∧
    Cursor.u32N .debug c = .ok (v, c') ∧ Cursor.next .debug c' = .error .panic :=
  ⟨insideRecord, { insideRecord with pos := 12 }, 0x00000107, ⟨by decide, by decide⟩, by decide +kernel,
    by decide +kernel, by decide +kernel⟩

/-! ## Streams of records -/

/-- the end of a record just read -/
structure EndsAt (c : Cursor) (before after : Bytes) : Prop where
  data : c.data = before ++ after
  place : c.pos + c.left = before.length

theorem padded_zeroEnded {name : Bytes} (h : RecordName name) :
    zeroEnded (name ++ List.replicate (4 - name.length) 0) = decodeLatin1 name := by
  unfold zeroEnded
  congr 1
  have h0 := h.2.2
  generalize 4 - name.length = k
  clear h
  induction name with
  | nil => cases k <;> simp [List.replicate_succ]
  | cons x xs ih =>
    have hx : x ≠ 0 := fun e => h0 (by simp [e])
    rw [List.cons_append, List.takeWhile_cons_of_pos (by simp [hx]), ih (fun m => h0 (by simp [m]))]

theorem latin1Char_inj {a b : UInt8} (h : latin1Char a = latin1Char b) : a = b := by
  have h1 : latin1Byte (latin1Char a) = some a := latin1Byte_latin1Char a
  rw [h, latin1Byte_latin1Char] at h1
  exact (Option.some.inj h1).symm

theorem decodeLatin1_inj {a b : Bytes} (h : decodeLatin1 a = decodeLatin1 b) : a = b :=
  (List.map_inj_right fun _ _ => latin1Char_inj).1 h

theorem decodeLatin1_endb (name : Bytes) : decodeLatin1 name = "ENDB".toList ↔ name = endbName := by
  constructor
  · intro h
    have e : decodeLatin1 name = decodeLatin1 endbName := h
    exact decodeLatin1_inj e
  · rintro rfl; rfl

theorem next_frame {c : Cursor} {before name payload after : Bytes} (hc : EndsAt c before (recordBytes name payload ++ after))
    (hn : RecordName name) (hl : 4 + payload.length < 2 ^ 32) (hd : c.data.length < 2 ^ 63)
    (hw : name = endbName → c.warn = true → payload ++ after = []) :
    Cursor.next .debug c = .ok (if name = endbName ∨ payload ++ after = [] then none else some (decodeLatin1 name),
      { data := c.data, pos := before.length + 8, left := payload.length, tag := decodeLatin1 name, warn := c.warn }) := by
  have hlen : c.data.length = before.length + (8 + payload.length) + after.length := by
    have h4 : name.length + (4 - name.length) = 4 := by have := hn.2.1; omega
    rw [hc.data]
    unfold recordBytes
    simp only [List.length_append, le32_length, List.length_replicate]
    omega
  have hm : c.Machine := by
    have := hc.place
    exact ⟨by omega, by omega⟩
  rw [next_eq .debug hm]
  have ha : Build.add .debug c.pos c.left = .ok before.length := by
    unfold Build.add
    rw [if_pos (by rw [hc.place]; omega), hc.place]
  rw [ha]
  dsimp only
  unfold nextHere
  rw [P.bind_def, P.get_def]
  dsimp only
  rw [if_neg (by omega)]
  -- the size
  have hsize : u32N .debug { c with pos := before.length, left := 0 }
      = .ok (UInt32.ofNat (4 + payload.length), { c with pos := before.length + 4, left := 0 }) := by
    unfold u32N
    have hf : front 4 { c with pos := before.length, left := 0 }
        = .ok (le32 (UInt32.ofNat (4 + payload.length)), { c with pos := before.length, left := 0 }) := by
      unfold front slice
      dsimp only
      rw [if_pos ⟨by omega, Nat.le_refl _⟩]
      dsimp only
      rw [if_neg (by simp; omega)]
      congr 2
      have hrl : (recordBytes name payload).length = 8 + payload.length := by
        have h4 : name.length + (4 - name.length) = 4 := by have := hn.2.1; omega
        unfold recordBytes
        simp only [List.length_append, le32_length, List.length_replicate]
        omega
      rw [hc.data, List.drop_left, List.take_take, Nat.min_eq_left (by simp; omega)]
      unfold recordBytes
      simp only [List.append_assoc]
      rw [List.take_append_of_le_length (by simp)]
      rfl
    rw [P.bind_def, hf]
    dsimp only
    rw [P.bind_def]
    unfold advance Build.add
    dsimp only
    rw [if_pos (by omega)]
    dsimp only
    rw [P.pure_def, ofLe32_le32]
  rw [P.bind_def, hsize]
  dsimp only
  rw [P.bind_def, P.modify_def]
  dsimp only
  -- the tag
  rw [ofNat_toNat_u32 hl]
  let c1 : Cursor := { c with pos := before.length + 4, left := 4 + payload.length }
  have hi : c1.Inside := by
    show before.length + 4 + (4 + payload.length) ≤ c.data.length ∧ c.data.length < 2 ^ 63
    omega
  have hs : str .debug 4 c1 = .ok (decodeLatin1 name, c1.move 4) := by
    have := mirrors_str 4 c1 hi
    have hu : (unread c1).take 4 = name ++ List.replicate (4 - name.length) 0 := by
      unfold unread
      show ((c.data.drop (before.length + 4)).take (4 + payload.length)).take 4 = _
      rw [List.take_take, Nat.min_eq_left (by omega), hc.data, ← List.drop_drop, List.drop_left]
      unfold recordBytes
      simp only [List.append_assoc]
      rw [List.drop_append_of_le_length (by simp), List.drop_eq_nil_of_le (by simp), List.nil_append,
        ← List.append_assoc, List.take_append_of_le_length (by have := hn.2.1; simp; omega)]
      exact List.take_of_length_le (by have := hn.2.1; simp; omega)
    have hlen1 : 4 ≤ (unread c1).length := by rw [unread_length hi]; show 4 ≤ 4 + payload.length; omega
    unfold fixedSize cutAt at this
    rw [if_pos hlen1] at this
    dsimp only at this
    obtain ⟨k, hk, hr, he⟩ := this
    rw [hu, padded_zeroEnded hn] at he
    have hk4 : k = 4 := by
      have := congrArg List.length hr
      simp only [List.length_drop] at this
      have hl1 := unread_length hi
      have hl2 : c1.left = 4 + payload.length := rfl
      omega
    rw [he, hk4]
  rw [P.bind_def, hs]
  dsimp only
  have hne : (decodeLatin1 name).isEmpty = false := by
    have := hn.1
    cases name with
    | nil => simp at this
    | cons x xs => rfl
  rw [hne, if_neg (by decide)]
  rw [P.bind_def, P.modify_def]
  dsimp only
  rw [P.bind_def, P.get_def]
  dsimp only
  have hmv : c1.move 4 = { c with pos := before.length + 8, left := payload.length } := by
    unfold Cursor.move
    show ({ c with pos := before.length + 4 + 4, left := 4 + payload.length - 4 } : Cursor) = _
    congr 1
    omega
  rw [hmv]
  dsimp only
  have hpos : (before.length + 8 < c.data.length) ↔ payload ++ after ≠ [] := by
    rw [hlen]
    rw [← List.length_pos_iff, List.length_append]
    omega
  have hend : (decodeLatin1 name == "ENDB".toList) = decide (name = endbName) := by
    rw [Bool.eq_iff_iff, beq_iff_eq, decide_eq_true_iff, decodeLatin1_endb]
  rw [hend]
  by_cases he : name = endbName
  · rw [if_neg]
    · rw [if_pos (Or.inl he)]
      unfold isEof
      dsimp only
      rw [hend, decide_eq_true he, Bool.or_true, if_pos rfl]
      rfl
    · simp only [he, decide_true, Bool.and_true, Bool.and_eq_true, decide_eq_true_eq, not_and, Nat.not_lt]
      intro hwn
      have := hw he hwn
      exact Nat.le_of_not_lt fun hlt => hpos.1 hlt this
  · rw [if_neg (by simp [he])]
    unfold isEof
    dsimp only
    rw [hend, decide_eq_false he, Bool.or_false]
    by_cases ht : payload ++ after = []
    · rw [if_pos (Or.inr ht), if_pos (by
        rw [decide_eq_true_iff]
        have := mt hpos.1 (by simpa using ht)
        omega)]
      rfl
    · rw [if_neg (not_or.2 ⟨he, ht⟩ : ¬(name = endbName ∨ payload ++ after = [])), if_neg (by
        rw [decide_eq_true_iff]
        have := hpos.2 ht
        omega)]
      rfl

/-- what is done with a record: its name, its bytes, and the calls made in it -/
structure Visit where
  name : Bytes
  payload : Bytes
  calls : List Read

theorem stream_aux (result : Visit → List Out) : ∀ (vs : List Visit) (c : Cursor) (before : Bytes),
    EndsAt c before (streamBytes (vs.map fun v => (v.name, v.payload))) → c.data.length < 2 ^ 63 →
    (∀ v ∈ vs, RecordName v.name ∧ v.name ≠ endbName ∧ 4 + v.payload.length < 2 ^ 32) →
    (∀ v ∈ vs, (parseReads v.calls v.payload).map Prod.fst = some (result v)) →
    ∃ c', runRecords .debug (vs.map (·.calls) ++ [[]]) c
      = .ok (vs.map (fun v => (some (decodeLatin1 v.name), result v)) ++ [(none, [])], c') ∧
      c'.pos = c.data.length ∧ c'.left = 0 ∧ c'.tag = "ENDB".toList
  | [], c, before, hc, hd, _, _ => by
    have h := next_frame (c := c) (before := before) (name := endbName) (payload := []) (after := [])
      (by simpa [streamBytes] using hc) (by decide) (by decide) hd (fun _ _ => rfl)
    refine ⟨{ data := c.data, pos := before.length + 8, left := 0, tag := "ENDB".toList, warn := c.warn }, ?_, ?_⟩
    · show runRecords .debug [[]] c = _
      unfold runRecords
      rw [P.bind_def, h]
      dsimp only
      rw [if_pos (Or.inl rfl)]
      rfl
    · refine ⟨?_, rfl, rfl⟩
      rw [hc.data]
      simp [streamBytes, recordBytes, endbName]
  | v :: vs, c, before, hc, hd, hv, hr => by
      have hos := hr v (by simp)
      obtain ⟨hn, hne, hl⟩ := hv v (by simp)
      have hs : streamBytes ((v :: vs).map fun v => (v.name, v.payload))
          = recordBytes v.name v.payload ++ streamBytes (vs.map fun v => (v.name, v.payload)) := by
        simp [streamBytes]
      rw [hs] at hc
      have htail : v.payload ++ streamBytes (vs.map fun v => (v.name, v.payload)) ≠ [] := by
        simp [streamBytes, recordBytes, endbName]
      have h := next_frame hc hn hl hd (fun e => absurd e hne)
      rw [if_neg (by simp [hne, htail])] at h
      let c1 : Cursor := { data := c.data, pos := before.length + 8, left := v.payload.length,
                           tag := decodeLatin1 v.name, warn := c.warn }
      have hlen : c.data.length = before.length + (8 + v.payload.length)
          + (streamBytes (vs.map fun v => (v.name, v.payload))).length := by
        have h4 : v.name.length + (4 - v.name.length) = 4 := by have := hn.2.1; omega
        rw [hc.data]
        unfold recordBytes
        simp only [List.length_append, le32_length, List.length_replicate]
        omega
      have hi : c1.Inside := by
        show before.length + 8 + v.payload.length ≤ c.data.length ∧ c.data.length < 2 ^ 63
        omega
      have hrec : (recordBytes v.name v.payload).length = 8 + v.payload.length := by
        have h4 : v.name.length + (4 - v.name.length) = 4 := by have := hn.2.1; omega
        unfold recordBytes
        simp only [List.length_append, le32_length, List.length_replicate]
        omega
      have hu : unread c1 = v.payload := by
        unfold unread
        show (c.data.drop (before.length + 8)).take v.payload.length = _
        rw [hc.data, ← List.drop_drop, List.drop_left]
        unfold recordBytes
        have h4 : (le32 (UInt32.ofNat (4 + v.payload.length)) ++ (v.name ++ List.replicate (4 - v.name.length) 0)).length = 8 := by
          have := hn.2.1; simp; omega
        rw [List.append_assoc, List.drop_append_of_le_length (by rw [h4]; exact Nat.le_refl _),
          List.drop_eq_nil_of_le (by rw [h4]; exact Nat.le_refl _), List.nil_append, List.take_left]
      have hm := mirrors_reads v.calls c1 hi
      rw [hu] at hm
      cases hp : parseReads v.calls v.payload with
      | none => rw [hp] at hos; cases hos
      | some p =>
        obtain ⟨os', rest⟩ := p
        rw [hp] at hos hm
        simp only [Option.map_some, Option.some.injEq] at hos
        obtain ⟨k, hk, _, he⟩ := hm
        have hk' : k ≤ v.payload.length := hk
        have hat : EndsAt (c1.move k) (before ++ recordBytes v.name v.payload)
            (streamBytes (vs.map fun v => (v.name, v.payload))) := by
          refine ⟨?_, ?_⟩
          · show c.data = _
            rw [hc.data, List.append_assoc]
          · show before.length + 8 + k + (v.payload.length - k) = _
            rw [List.length_append, hrec]
            omega
        obtain ⟨c', hx, hpos, hleft, htag⟩ := stream_aux result vs (c1.move k) _ hat hd
          (fun v hv' => hv v (by simp [hv'])) (fun v hv' => hr v (by simp [hv']))
        refine ⟨c', ?_, hpos, hleft, htag⟩
        show runRecords .debug (v.calls :: (vs.map (·.calls) ++ [[]])) c = _
        unfold runRecords
        rw [P.bind_def, h]
        dsimp only
        rw [P.bind_def, show runReads .debug v.calls c1 = _ from he]
        dsimp only
        rw [P.bind_def, hx, List.map_cons, ← hos]
        rfl

/-- C93: reading a stream of records, with any counted calls in each record: `next` returns the names
in order, the calls of a record return what the specification says of the bytes of this record, and
after the last record `next` returns nothing and the reader is at the end. -/
theorem C93_stream (vs : List Visit) (result : Visit → List Out)
    (hv : ∀ v ∈ vs, RecordName v.name ∧ v.name ≠ endbName ∧ 4 + v.payload.length < 2 ^ 32)
    (hd : (streamBytes (vs.map fun v => (v.name, v.payload))).length < 2 ^ 63)
    (hr : ∀ v ∈ vs, (parseReads v.calls v.payload).map Prod.fst = some (result v)) :
    ∃ c', runRecords .debug (vs.map (·.calls) ++ [[]])
        (Cursor.new (streamBytes (vs.map fun v => (v.name, v.payload))))
      = .ok (vs.map (fun v => (some (decodeLatin1 v.name), result v)) ++ [(none, [])], c') ∧
      c'.pos = (streamBytes (vs.map fun v => (v.name, v.payload))).length ∧ c'.left = 0 ∧
      c'.tag = "ENDB".toList :=
  stream_aux result vs _ [] ⟨rfl, rfl⟩ hd hv hr

/-- two records, the first not read to its end -/
def twoVisits : List Visit :=
  [⟨[0x41, 0x42], [7, 1, 0, 0, 0, 0x58], [.one .u8, .many .u8 2]⟩, ⟨[0x43], [9, 0], [.one .u16]⟩]

example : (∀ v ∈ twoVisits, RecordName v.name ∧ v.name ≠ endbName ∧ 4 + v.payload.length < 2 ^ 32) ∧
    (streamBytes (twoVisits.map fun v => (v.name, v.payload))).length < 2 ^ 63 ∧
    (twoVisits.map fun v => (parseReads v.calls v.payload).map Prod.fst)
      = [some [.one (.u8 7), .many [.u8 1, .u8 0]], some [.one (.u16 9)]] :=
  ⟨by decide, by decide, by decide +kernel⟩

/-- The end record is needed: a last record without bytes is not reported by `next`, although its name
was read. -/
theorem C93_no_end_counterexample : ∃ c', Cursor.next .debug (Cursor.new (recordBytes [0x43] [])) = .ok (none, c') ∧
    c'.tag = "C".toList :=
  ⟨{ data := recordBytes [0x43] [], pos := 8, left := 0, tag := "C".toList }, by decide +kernel, rfl⟩

/-! ## The bytes of a record -/

theorem slice_ok (c : Cursor) {a e : Nat} (h : a ≤ e) (he : e ≤ c.data.length) :
    c.slice a e = .ok ((c.data.drop a).take (e - a)) := by
  unfold Cursor.slice
  rw [if_pos ⟨h, he⟩]

theorem add_ok (b : Build) {x y : Nat} (h : x + y < 2 ^ 64) : b.add x y = .ok (x + y) := by
  unfold Build.add
  rw [if_pos h]

theorem sub_ok (b : Build) {x y : Nat} (h : y ≤ x) : b.sub x y = .ok (x - y) := by
  unfold Build.sub
  rw [if_pos h]

theorem bytesN_ok (b : Build) (c : Cursor) {n : Nat} (h : c.pos + n ≤ c.data.length) (hd : c.data.length < 2 ^ 63) :
    Cursor.bytesN b n c = .ok ((c.data.drop c.pos).take n, { c with pos := c.pos + n }) := by
  unfold Cursor.bytesN
  rw [P.bind_def]
  unfold Cursor.peek Cursor.advance
  rw [add_ok b (by omega)]
  dsimp only
  rw [slice_ok c (by omega) h, Nat.add_sub_cancel_left]
  dsimp only
  rw [P.bind_def, add_ok b (by omega)]
  rfl

theorem front_at (c : Cursor) {x rest : Bytes} {n : Nat} (h : c.data.drop c.pos = x ++ rest) (hx : x.length = n)
    (hp : c.pos ≤ c.data.length) : Cursor.front n c = .ok (x, c) := by
  unfold Cursor.front
  rw [slice_ok c hp (Nat.le_refl _), List.take_of_length_le (by rw [List.length_drop]; omega), h]
  dsimp only
  rw [if_neg (by rw [List.length_append]; omega), ← hx, List.take_left]

/-- C93: the methods that take bytes without counting them, in a record inside the data: the rest of
the record, with the four bytes of its name or, if anything follows the record, without; the bytes of
a given number; a number and as many bytes. Afterwards the record counts as read. -/
theorem C93_bytes (c : Cursor) (hc : c.Inside) :
    (4 ≤ c.pos → Cursor.recordData .debug true c
      = .ok ((c.data.drop (c.pos - 4)).take 4 ++ unread c, { c with pos := c.pos + c.left, left := 0 })) ∧
    (c.pos + c.left < c.data.length → Cursor.recordData .debug false c
      = .ok (unread c, { c with pos := c.pos + c.left, left := 0 })) ∧
    (∀ n, c.pos + n ≤ c.data.length → Cursor.dataOf .debug n c
      = .ok ((c.data.drop c.pos).take n, { c with pos := c.pos + n, left := 0 })) ∧
    (∀ (d rest : Bytes), d.length < 2 ^ 32 → c.data.drop c.pos = le32 (UInt32.ofNat d.length) ++ d ++ rest →
      Cursor.dataN .debug c = .ok (d, { c with pos := c.pos + 4 + d.length, left := 0 })) := by
  obtain ⟨hin, hlen⟩ := hc
  refine ⟨fun h4 => ?_, fun hl => ?_, fun n hn => ?_, fun d rest hd hdata => ?_⟩
  · unfold Cursor.recordData
    rw [add_ok .debug (by omega)]
    dsimp only
    rw [if_pos rfl, sub_ok .debug h4]
    dsimp only
    rw [slice_ok c (by omega) hin]
    dsimp only
    rw [show c.pos + c.left - (c.pos - 4) = 4 + c.left by omega, List.take_add, List.drop_drop,
      show c.pos - 4 + 4 = c.pos by omega]
    rfl
  · unfold Cursor.recordData
    rw [add_ok .debug (by omega)]
    dsimp only
    rw [if_neg (by decide), if_neg (by omega), slice_ok c (by omega) hin]
    dsimp only
    rw [Nat.add_sub_cancel_left]
    rfl
  · unfold Cursor.dataOf
    rw [P.bind_def, bytesN_ok .debug c hn hlen]
    rfl
  · have htot : c.data.length = c.pos + (4 + d.length + rest.length) ∨ c.data.length < c.pos := by
      have := congrArg List.length hdata
      simp only [List.length_drop, List.length_append, le32_length] at this
      omega
    have hp : c.data.length = c.pos + (4 + d.length + rest.length) := by omega
    unfold Cursor.dataN Cursor.u32N
    rw [P.bind_def, P.bind_def, front_at c (x := le32 (UInt32.ofNat d.length)) (rest := d ++ rest)
      (by rw [hdata, List.append_assoc]) (le32_length _) (by omega)]
    dsimp only
    rw [P.bind_def]
    unfold Cursor.advance
    rw [add_ok .debug (by omega)]
    dsimp only
    rw [P.pure_def]
    dsimp only
    rw [ofLe32_le32, ofNat_toNat_u32 hd, P.bind_def, bytesN_ok .debug { c with pos := c.pos + 4 } (n := d.length)
      (show c.pos + 4 + d.length ≤ c.data.length by omega) hlen]
    dsimp only
    rw [P.bind_def]
    unfold Cursor.done
    dsimp only
    rw [P.pure_def]
    congr 2
    rw [← List.drop_drop, hdata, List.append_assoc, List.drop_left' (le32_length _), List.take_left]

example : insideRecord.Inside ∧ 4 ≤ insideRecord.pos ∧ insideRecord.pos + insideRecord.left < insideRecord.data.length ∧
    Cursor.recordData .debug true insideRecord
      = .ok ([0x41, 0x42, 0, 0, 7, 1, 0, 0, 0, 0x58], { insideRecord with pos := 14, left := 0 }) :=
  ⟨⟨by decide, by decide⟩, by decide, by decide, by decide +kernel⟩

theorem search_at (pat : Bytes) (hp : pat ≠ []) : ∀ (before rest : Bytes) (p : Nat),
    (∀ k < before.length, ¬ pat <+: (before ++ pat ++ rest).drop k) →
    Cursor.search pat (before ++ pat ++ rest) p = .ok (p + before.length)
  | [], rest, p, _ => by
    obtain ⟨x, xs, rfl⟩ := List.exists_cons_of_ne_nil hp
    rw [List.nil_append, List.cons_append]
    unfold Cursor.search
    rw [if_neg (by simp), if_pos (by rw [← List.cons_append, List.take_left])]
    rfl
  | b :: before, rest, p, h => by
    rw [List.cons_append, List.cons_append]
    unfold Cursor.search
    rw [if_neg (by simp; omega), if_neg]
    · rw [search_at pat hp before rest (p + 1) fun k hk hpre => h (k + 1) (by simp; omega) (by simpa using hpre)]
      congr 1
      simp
      omega
    · intro e
      refine h 0 (by simp) ?_
      rw [List.drop_zero, List.cons_append, List.cons_append]
      exact List.prefix_iff_eq_take.2 e.symm

/-- C93: reading up to a mark: the bytes up to four before the first place where the mark occurs (the
size of the record it names), and the reader is there. -/
theorem C93_until (b : Build) (c : Cursor) (pat before rest : Bytes) (hp : pat ≠ []) (h4 : 4 ≤ before.length)
    (hdata : c.data.drop c.pos = before ++ pat ++ rest)
    (hfirst : ∀ k < before.length, ¬ pat <+: (before ++ pat ++ rest).drop k) :
    Cursor.dataUntil b pat c
      = .ok (before.take (before.length - 4), { c with pos := c.pos + (before.length - 4), left := 0 }) := by
  have hlen := congrArg List.length hdata
  simp only [List.length_drop, List.length_append] at hlen
  unfold Cursor.dataUntil
  rw [hdata, search_at pat hp before rest c.pos hfirst]
  dsimp only
  rw [sub_ok b (by omega)]
  dsimp only
  rw [slice_ok c (by omega) (by omega), hdata]
  dsimp only
  rw [show c.pos + before.length - 4 - c.pos = before.length - 4 by omega,
    show c.pos + before.length - 4 = c.pos + (before.length - 4) by omega, List.append_assoc,
    List.take_append_of_le_length (by omega)]

example : (Cursor.new ([1, 2, 3, 9, 9, 9, 9, 0x4e, 0x41, 7])).data.drop 0 = [1, 2, 3, 9, 9, 9, 9] ++ [0x4e, 0x41] ++ [7] ∧
    (∀ k < 7, ¬ [0x4e, 0x41] <+: (([1, 2, 3, 9, 9, 9, 9] ++ [0x4e, 0x41] ++ [7] : Bytes)).drop k) ∧
    Cursor.dataUntil .debug [0x4e, 0x41] (Cursor.new [1, 2, 3, 9, 9, 9, 9, 0x4e, 0x41, 7])
      = .ok ([1, 2, 3], { data := [1, 2, 3, 9, 9, 9, 9, 0x4e, 0x41, 7], pos := 3, left := 0 }) :=
  ⟨rfl, by decide, by decide +kernel⟩

/-- The last record of the data is refused: the check is for more bytes than needed. -/
theorem C93_last_record_counterexample : ∃ c : Cursor, c.Inside ∧ unread c = [1, 2] ∧
    Cursor.recordData .debug false c = .error .panic :=
  ⟨{ data := recordBytes [0x43] [1, 2], pos := 8, left := 2 }, ⟨by decide, by decide⟩, by decide +kernel,
    by decide +kernel⟩

end Vpin
