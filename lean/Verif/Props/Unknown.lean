import Verif.Lemmas.GameItem
/-!
# C06: records a reader does not know are skipped
-/
namespace Vpin

/-- C06: at any record boundary inside the data of an item of any kind, a record whose name the
reader of that kind does not know can be inserted, whatever its payload, without changing the result
of reading (be it an item or an error). -/
theorem C06_unknown_record_ignored (k : Kind) (pre post name payload : Bytes)
    (hb : k.Boundary pre post) (hpost : post ≠ [])
    (hn : RecordName name) (hne : name ≠ endbName) (hp : 4 + payload.length < 2 ^ 32)
    (hu : nameTag name ∉ k.tags) :
    GameItemEnum.read (le32 k.number ++ (pre ++ (recordBytes name payload ++ post)))
      = GameItemEnum.read (le32 k.number ++ (pre ++ post)) :=
  kind_skip k hb hpost hn hne hp hu

/-- the boundary after the TMON record of a timer, an unknown record name, and a payload -/
example : (Kind.timer).Boundary (recordBytes [0x54, 0x4d, 0x4f, 0x4e] [1, 0, 0, 0])
      (recordBytes endbName []) ∧ recordBytes endbName [] ≠ [] ∧
    RecordName [0x58, 0x59, 0x5a, 0x5a] ∧ nameTag [0x58, 0x59, 0x5a, 0x5a] ∉ (Kind.timer).tags :=
  ⟨⟨1, _, _, .record (by rfl) (by rfl) (by rfl) (.here _ _), by rfl⟩, by decide, by decide,
    by decide +kernel⟩

/-- C06: the same for every structure read by a record loop with a fixed set of known names and no
default arm. -/
theorem C06_unknown_record_ignored_struct {σ : Type} {hs : Handlers σ} (ht : ArmsTame hs)
    (h0 : hs.lookup anyTag = none) (s : σ)
    (pre post name payload : Bytes) (hb : Boundary hs s pre post) (hpost : post ≠ [])
    (hn : RecordName name) (hne : name ≠ endbName) (hp : 4 + payload.length < 2 ^ 32)
    (hu : nameTag name ∉ hs.map (·.1)) :
    readStruct hs s (pre ++ (recordBytes name payload ++ post)) = readStruct hs s (pre ++ post) :=
  boundary_skip ht hb hpost hn hne hp
    fun s w raw => dispatch_skip (lookup_none_of_not_mem hu) h0 payload post s w raw

/-- C06: any number of unknown records, one after the other, at a boundary. -/
theorem C06_unknown_records_ignored {σ : Type} {hs : Handlers σ} (ht : ArmsTame hs)
    (h0 : hs.lookup anyTag = none) (s : σ) (pre post : Bytes) (hb : Boundary hs s pre post)
    (hpost : post ≠ []) (rs : List (Bytes × Bytes))
    (hr : ∀ r ∈ rs, RecordName r.1 ∧ r.1 ≠ endbName ∧ 4 + r.2.length < 2 ^ 32 ∧
      nameTag r.1 ∉ hs.map (·.1)) :
    readStruct hs s (pre ++ (rs.flatMap (fun r => recordBytes r.1 r.2) ++ post))
      = readStruct hs s (pre ++ post) := by
  induction rs with
  | nil => rfl
  | cons r rs ih =>
    obtain ⟨h1, h2, h3, h4⟩ := hr r (by simp)
    rw [List.flatMap_cons, List.append_assoc]
    have hp' : rs.flatMap (fun r => recordBytes r.1 r.2) ++ post ≠ [] := by simp [hpost]
    rw [C06_unknown_record_ignored_struct ht h0 s pre _ r.1 r.2 (hb.extend ht hpost hp') hp' h1 h2 h3 h4]
    exact ih fun r' hr' => hr r' (by simp [hr'])

end Vpin
