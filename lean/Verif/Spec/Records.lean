import Verif.Model.Biff
/-
What a stream of tagged records is, in bytes. Independent of the reader and writer of the model.
-/
namespace Vpin

/-- a record name: one to four bytes, none of them NUL -/
def RecordName (name : Bytes) : Prop := 1 ≤ name.length ∧ name.length ≤ 4 ∧ 0 ∉ name

instance (name : Bytes) : Decidable (RecordName name) := inferInstanceAs (Decidable (_ ∧ _ ∧ _))

/-- the bytes "ENDB" -/
def endbName : Bytes := [0x45, 0x4e, 0x44, 0x42]

/-- One record: little-endian size of name and payload (4 + payload length), the name padded
with NUL to four bytes, the payload. -/
def recordBytes (name payload : Bytes) : Bytes :=
  le32 (UInt32.ofNat (4 + payload.length)) ++ (name ++ List.replicate (4 - name.length) 0) ++ payload

/-- A closed stream of records. -/
def streamBytes (rs : List (Bytes × Bytes)) : Bytes :=
  rs.flatMap (fun r => recordBytes r.1 r.2) ++ recordBytes endbName []

/-- the tag value of a record name -/
def nameTag (name : Bytes) : Tag := leNat name

/-- the client loop `loop { next(); if is_eof() { break } push((tag(), get_record_data(false))) }`,
as in /repo/src/vpx/gameitem/generic.rs:56-75 without its special case for NAME -/
def collectRecords : R (List (Tag × Bytes)) := fun r =>
  loop (fun t acc => do
    let d ← getRecordData
    pure (acc ++ [(t, d)])) (r.rest.length + 1) [] r

end Vpin
