import Verif.Lemmas.Records
/-!
# C01: record framing
-/
namespace Vpin

/-- C01: whatever records are written, the bytes are exactly the concatenation of the records
followed by the end marker. -/
theorem C01_written_bytes (rs : List (Bytes × Bytes))
    (h : ∀ r ∈ rs, RecordName r.1 ∧ r.1 ≠ endbName ∧ 4 + r.2.length < 2 ^ 32) :
    writeBiff (rs.map fun r => wData (nameTag r.1) r.2) = .ok (streamBytes rs) := by
  rw [writeBiff_ok]
  · have : bytesOf (rs.map fun r => wData (nameTag r.1) r.2)
        = rs.flatMap fun r => recordBytes r.1 r.2 := by
      induction rs with
      | nil => rfl
      | cons r rs ih =>
        rw [List.map_cons, bytesOf_cons, ih fun r hr => h r (by simp [hr]), List.flatMap_cons,
          recordBytes_eq (h r (by simp)).1]
        rfl
    rw [this, streamBytes, recordBytes_endb]
  · intro op ho
    obtain ⟨r, hr, rfl⟩ := List.mem_map.1 ho
    exact ⟨(validTag_nameTag (h r hr).1).1, (h r hr).2.2⟩

/-- C01: reading a stream of records gives back the same names and payloads in the same order,
and the reader ends at the end marker with nothing left. -/
theorem C01_records_read_back (rs : List (Bytes × Bytes))
    (h : ∀ r ∈ rs, RecordName r.1 ∧ r.1 ≠ endbName ∧ 4 + r.2.length < 2 ^ 32) :
    ∃ r, collectRecords (Rd.new (streamBytes rs)) = .ok (rs.map fun r => (nameTag r.1, r.2), r) ∧
      r.rest = [] ∧ r.tag = ENDB := by
  let hd : Tag → List (Tag × Bytes) → R (List (Tag × Bytes)) := fun t acc => do
    let d ← getRecordData
    pure (acc ++ [(t, d)])
  have key : ∀ (acc : List (Tag × Bytes)), Reads hd (rs.flatMap fun r => recordBytes r.1 r.2) acc
      (acc ++ rs.map fun r => (nameTag r.1, r.2)) := by
    induction rs with
    | nil => intro acc; simpa using Reads.nil hd acc
    | cons x rs ih =>
      intro acc
      obtain ⟨hx1, hx2, hx3⟩ := h x (by simp)
      have h2 := ih (fun r hr => h r (by simp [hr])) (acc ++ [(nameTag x.1, x.2)])
      rw [List.flatMap_cons, List.map_cons]
      have h1 : Reads hd (recordBytes x.1 x.2) acc (acc ++ [(nameTag x.1, x.2)]) := by
        rw [recordBytes_eq hx1]
        refine Reads.record (validTag_nameTag hx1) ?_ hx3 ?_
        · intro he
          exact hx2 (nameTag_inj hx1 (by decide) (he.trans endbName_tag.symm))
        · intro rest tag w raw hr
          have hg : getRecordData ⟨x.2 ++ rest, x.2.length, tag, w, raw⟩
              = .ok (x.2, ⟨rest, 0, tag, w, raw⟩) := by
            have : ¬ (x.2 ++ rest).length ≤ x.2.length := by
              have := List.length_pos_iff.2 hr
              simp; omega
            simp only [getRecordData, this, if_false]
            simp
          exact R.bind_ok hg
      have := h1.append h2
      rwa [List.append_assoc] at this
  have hk := key []
  rw [List.nil_append] at hk
  have := loop_stream hk [] 0 true [] ((streamBytes rs).length + 1)
    (by simp [streamBytes, recordBytes_endb]) (.inr rfl)
  rw [List.append_nil, ← recordBytes_endb] at this
  exact ⟨_, this, rfl, rfl⟩

/-- C01: write and read. -/
theorem C01_framing_roundtrip (rs : List (Bytes × Bytes))
    (h : ∀ r ∈ rs, RecordName r.1 ∧ r.1 ≠ endbName ∧ 4 + r.2.length < 2 ^ 32) :
    ∃ bs r, writeBiff (rs.map fun r => wData (nameTag r.1) r.2) = .ok bs ∧ bs = streamBytes rs ∧
      collectRecords (Rd.new bs) = .ok (rs.map fun r => (nameTag r.1, r.2), r) ∧
      r.rest = [] ∧ r.tag = ENDB := by
  obtain ⟨r, h1, h2⟩ := C01_records_read_back rs h
  exact ⟨_, r, C01_written_bytes rs h, rfl, h1, h2⟩

/-- The tag the reader reports identifies the name: different names give different tags. -/
theorem C01_names_distinct {a b : Bytes} (ha : RecordName a) (hb : RecordName b) :
    nameTag a = nameTag b ↔ a = b := ⟨nameTag_inj ha hb, fun h => by rw [h]⟩

/-- a stream with a four-letter and a one-letter name, an empty payload and a repeated name -/
def framingExample : List (Bytes × Bytes) :=
  [([0x56, 0x43, 0x45, 0x4e], [1, 2, 3]), ([0x41], []), ([0x56, 0x43, 0x45, 0x4e], [0, 0])]

example : ∀ r ∈ framingExample,
    RecordName r.1 ∧ r.1 ≠ endbName ∧ 4 + r.2.length < 2 ^ 32 := by decide

example : (collectRecords (Rd.new (streamBytes framingExample))).map (·.1)
    = .ok [(tag!"VCEN", [1, 2, 3]), (tag!"A", []), (tag!"VCEN", [0, 0])] := by decide

end Vpin
