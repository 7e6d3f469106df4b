import Verif.Lemmas.ItemData
import Verif.Lemmas.Skip
import Verif.Spec.GameItem
/-!
Items with their leading type number.
-/
namespace Vpin

theorem writeWithType_ok (t : UInt32) (ops : List WOp) (h : ∀ op ∈ ops, op.Good) :
    writeWithType t ops = .ok (le32 t ++ (bytesOf ops ++ endbBytes)) := by
  obtain ⟨w, hr, ht, hd⟩ := runOps_clean (({} : Wr).write (le32 t)) rfl ops h
  obtain ⟨w', hr', _, hd'⟩ := WOp.run_clean w ht (.sized ENDB []) ⟨by decide, by decide⟩
  have hc : w.close true = .ok w' := by
    rw [← hr']
    simp [Wr.close, WOp.run]
    split <;> rename_i h1 <;> simp [Wr.write]
  unfold writeWithType
  rw [hr]
  simp only [hc]
  rw [hd', hd]
  simp [Wr.write, endbBytes]

theorem OReads.typed {σ : Type} {hs : Handlers σ} {ops : List WOp} {s s' : σ} {t : UInt32}
    {c : σ → GameItemEnum} (h : OReads hs ops s s')
    (hk : GameItemEnum.readKind t = c <$> readWith hs s) :
    ∃ bs, writeWithType t ops = .ok bs ∧ GameItemEnum.read bs = .ok (c s') := by
  refine ⟨_, writeWithType_ok t ops h.good, ?_⟩
  have hl := loop_stream h.reads [] 0 true [] ((bytesOf ops ++ endbBytes).length + 1)
    (by simp) (.inr rfl)
  rw [List.append_nil] at hl
  have h1 : getU32N (Rd.new (le32 t ++ (bytesOf ops ++ endbBytes)))
      = .ok (t, ⟨bytesOf ops ++ endbBytes, 0, 0, true, []⟩) := getU32N_rt t _ _ _ _ _
  have h2 : (c <$> readWith hs s) ⟨bytesOf ops ++ endbBytes, 0, 0, true, []⟩
      = .ok (c s', ⟨[], 0, ENDB, true, tagBytes ENDB⟩) := by
    show (readWith hs s >>= fun v => pure (c v)) _ = _
    rw [R.bind_ok (show readWith hs s _ = _ from hl)]; rfl
  unfold GameItemEnum.read
  rw [R.bind_ok h1, hk, h2]

theorem R.map_inv {α β : Type} {g : R α} {f : α → β} {r r' : Rd} {u : β}
    (h : (f <$> g) r = .ok (u, r')) : ∃ v r1, g r = .ok (v, r1) ∧ u = f v := by
  obtain ⟨v, r1, h1, h2⟩ := R.bind_inv (g := g) (k := fun v => pure (f v)) h
  cases h2
  exact ⟨v, _, h1, rfl⟩

theorem R.ite_inv {α : Type} {c : Prop} [Decidable c] {g g' : R α} {r : Rd}
    {x : Except Err (α × Rd)} (h : (if c then g else g') r = x) :
    (c ∧ g r = x) ∨ (¬ c ∧ g' r = x) := by
  by_cases hc : c
  · rw [if_pos hc] at h; exact .inl ⟨hc, h⟩
  · rw [if_neg hc] at h; exact .inr ⟨hc, h⟩

theorem map_gp {α β : Type} {g : R α} {f : α → β} {P : α → Prop} {Q : β → Prop} (h : GP g P)
    (hf : ∀ v, P v → Q (f v)) : GP (f <$> g) Q := by
  intro r v r' hb he
  obtain ⟨x, r1, h1, h2⟩ := R.map_inv he
  subst h2
  exact hf x (h r x _ hb h1)

theorem map_tame {α β : Type} {g : R α} {f : α → β} (h : Tame g) : Tame (f <$> g) :=
  Tame.bind h fun v => Tame.pure (f v)

theorem getU32N_brr {r r' : Rd} {t : UInt32} (h : getU32N r = .ok (t, r')) : r'.brr = r.brr := by
  obtain ⟨x, r1, h1, h2⟩ := R.bind_inv h
  cases h2
  unfold takeN at h1
  split at h1
  · cases h1; rfl
  · cases h1

theorem Tame.getTag : Tame Vpin.getTag := by
  refine ⟨fun r => ⟨fun h => (by cases h), fun v r' h => ?_⟩, fun r v r' h _ => ?_⟩
  · cases h; exact Nat.le_refl _
  · cases h; exact ⟨[], rfl, fun c _ => rfl⟩

theorem Generic.arms_tame : ArmsTame Generic.arms := by
  unfold Generic.arms
  exact .cons (fun _ => wide_tame.fld) <|
    .cons (fun _ => Tame.getTag.bind fun _ => Tame.getRecordData.fld) .nil

theorem read_typed {σ : Type} {hs : Handlers σ} {s : σ} {t : UInt32} {c : σ → GameItemEnum}
    (hk : GameItemEnum.readKind t = c <$> readWith hs s) (d : Bytes) :
    GameItemEnum.read (le32 t ++ d) = (readStruct hs s d).map c := by
  have h1 : getU32N (Rd.new (le32 t ++ d)) = .ok (t, Rd.new d) := getU32N_rt t _ _ _ _ _
  unfold GameItemEnum.read readStruct
  rw [R.bind_ok h1, hk]
  cases hr : readWith hs s (Rd.new d) with
  | error e =>
    have : (c <$> readWith hs s) (Rd.new d) = .error e :=
      R.bind_err (k := fun v => pure (c v)) hr
    rw [this]; rfl
  | ok p =>
    have : (c <$> readWith hs s) (Rd.new d) = .ok (c p.1, p.2) :=
      (R.bind_ok (v := p.1) (r' := p.2) (k := fun v => pure (c v)) hr).trans rfl
    rw [this]; rfl

theorem lookup_none_of_not_mem {σ : Type} {hs : Handlers σ} {t : Tag} (h : t ∉ hs.map (·.1)) :
    hs.lookup t = none := by
  cases hl : hs.lookup t with
  | none => rfl
  | some f => exact absurd (List.mem_map.2 ⟨_, lookup_mem hl, rfl⟩) h

theorem typed_skip {σ : Type} {hs : Handlers σ} {s : σ} {t : UInt32} {c : σ → GameItemEnum}
    (hk : GameItemEnum.readKind t = c <$> readWith hs s) (ht : ArmsTame hs)
    (h0 : anyTag ∉ hs.map (·.1)) {pre post name payload : Bytes} (hb : Boundary hs s pre post)
    (hpost : post ≠ []) (hn : RecordName name) (hne : name ≠ endbName)
    (hp : 4 + payload.length < 2 ^ 32) (hu : nameTag name ∉ hs.map (·.1)) :
    GameItemEnum.read (le32 t ++ (pre ++ (recordBytes name payload ++ post)))
      = GameItemEnum.read (le32 t ++ (pre ++ post)) := by
  rw [read_typed hk, read_typed hk, boundary_skip ht hb hpost hn hne hp]
  intro s w raw
  exact dispatch_skip (lookup_none_of_not_mem hu) (lookup_none_of_not_mem h0) _ _ _ _ _

theorem patch_prefix {p d b : Bytes} {n : Nat} (h : p.length ≤ n) (hd : ∃ x, d = p ++ x) :
    ∃ x, patch d n b = p ++ x := by
  obtain ⟨x, rfl⟩ := hd
  unfold patch
  rw [List.take_append]
  rw [List.take_of_length_le h]
  simp only [List.append_assoc]
  exact ⟨_, rfl⟩

/-- the data written so far starts with `p`, and the current record starts behind it -/
def Wr.Keeps (p : Bytes) (w : Wr) : Prop :=
  (∃ x, w.data = p ++ x) ∧ (w.tag ≠ 0 → p.length ≤ w.tagStart)

theorem endTag_keeps {p : Bytes} {w w' : Wr} (h : w.Keeps p) (he : w.endTag = .ok w') :
    w'.Keeps p := by
  unfold Wr.endTag at he
  split at he
  · cases he; exact h
  · next h0 =>
    split at he
    · cases he
      exact ⟨patch_prefix (h.2 h0) h.1, fun hx => absurd rfl hx⟩
    · cases he

theorem newTag_keeps {p : Bytes} {w w' : Wr} {t : Tag} (h : w.Keeps p) (he : w.newTag t = .ok w') :
    w'.Keeps p := by
  unfold Wr.newTag at he
  split at he
  · cases he
  · next w1 h1 =>
    cases he
    obtain ⟨⟨x, hx⟩, _⟩ := endTag_keeps h h1
    refine ⟨⟨x ++ [0, 0, 0, 0] ++ tagBytes t, by simp [hx]⟩, fun _ => ?_⟩
    simp [hx]

theorem write_keeps {p : Bytes} {w : Wr} {b : Bytes} (h : w.Keeps p) : (w.write b).Keeps p := by
  obtain ⟨⟨x, hx⟩, h2⟩ := h
  exact ⟨⟨x ++ b, by simp [Wr.write, hx]⟩, h2⟩

theorem run_keeps {p : Bytes} {w w' : Wr} {op : WOp} (h : w.Keeps p) (he : op.run w = .ok w') :
    w'.Keeps p := by
  cases op with
  | fail => cases he
  | sized t b =>
    unfold WOp.run at he
    simp only at he
    split at he
    · cases he
    · next w1 h1 => exact endTag_keeps (write_keeps (newTag_keeps h h1)) he
  | «unsized» t b =>
    unfold WOp.run at he
    simp only at he
    split at he
    · cases he
    · next w1 h1 =>
      cases he
      have hk := write_keeps (b := b) (newTag_keeps h h1)
      unfold Wr.endTagNoSize
      split
      · exact hk
      · next h0 => exact ⟨patch_prefix (hk.2 h0) hk.1, fun hx => absurd rfl hx⟩

theorem runOps_keeps {p : Bytes} {ops : List WOp} : ∀ {w w' : Wr}, w.Keeps p →
    runOps w ops = .ok w' → w'.Keeps p := by
  induction ops with
  | nil => intro w w' h he; cases he; exact h
  | cons op ops ih =>
    intro w w' h he
    unfold runOps at he
    split at he
    · cases he
    · next w1 h1 => exact ih (run_keeps h h1) he

theorem writeWithType_prefix {t : UInt32} {ops : List WOp} {bs : Bytes}
    (h : writeWithType t ops = .ok bs) : ∃ rest, bs = le32 t ++ rest := by
  unfold writeWithType at h
  split at h
  · cases h
  · next w hw =>
    have h1 : (({} : Wr).write (le32 t)).Keeps (le32 t) := ⟨⟨[], rfl⟩, fun hx => absurd rfl hx⟩
    have h2 := runOps_keeps h1 hw
    split at h
    · cases h
    · next w' hc =>
      cases h
      unfold Wr.close at hc
      simp only [if_true] at hc
      split at hc
      · cases hc
      · next w2 hn => exact (endTag_keeps (newTag_keeps h2 hn) hc).1

end Vpin
