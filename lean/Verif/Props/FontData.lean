import Verif.Lemmas.Image
import Verif.Spec.FontData
/-!
C51: fonts embedded in a table file.
-/
namespace Vpin

theorem FontData.reads {s : FontData} (h : s.WF) :
    OReads FontData.arms s.ops FontState.init ⟨s, some (UInt32.ofNat s.data.length)⟩ := by
  unfold FontData.ops
  have hl : s.data.length < 2 ^ 32 := by have : 4 + s.data.length < 2 ^ 32 := h.data; omega
  rw [if_pos hl]
  refine .segTo ⟨⟨s.name, [], []⟩, none⟩ (string_rt.req h.name rfl) rfl ?_
  refine .segTo ⟨⟨s.name, s.path, []⟩, none⟩ (string_rt.req h.path rfl) rfl ?_
  refine .segTo ⟨⟨s.name, s.path, []⟩, some (UInt32.ofNat s.data.length)⟩
    (u32_rt.req trivial rfl) rfl ?_
  refine .segTo ⟨s, some (UInt32.ofNat s.data.length)⟩ ?_ rfl (.done rfl)
  refine OReads.sized (f := _) rfl (by decide) (by decide) h.data ?_
  intro rest tag w raw _
  have e : (UInt32.ofNat s.data.length).toNat = s.data.length := by
    simp only [UInt32.toNat_ofNat']; exact Nat.mod_eq_of_lt hl
  refine (R.bind_ok (getData_rtn _ e rest _ tag w raw)).trans rfl

/-- **C51.** A font whose texts are representable is written and read back equal. -/
theorem C51_font_roundtrip (s : FontData) (h : s.WF) :
    ∃ bs, s.write = .ok bs ∧ FontData.read bs = .ok s := by
  obtain ⟨bs, h1, h2⟩ := (FontData.reads h).roundtrip
  exact ⟨bs, h1, by unfold FontData.read; rw [h2]⟩

/-- a font whose contents look like records -/
example : FontData.sample.WF := ⟨by decide, by decide, by decide⟩

theorem FontData.arms_inv : ArmsInv (fun s : FontState => Text s.font.name ∧ Text s.font.path)
    FontData.arms := by
  unfold FontData.arms
  refine .cons (.fld string_gp fun _ _ h hv => ⟨hv, h.2⟩) <|
    .cons (.fld string_gp fun _ _ h hv => ⟨h.1, hv⟩) <|
    .cons (.fld GP.any fun _ _ h _ => h) <| .cons ?_ .nil
  intro s r s' r' hi hb hr
  have := ArmInv.fld (g := match s.size with
      | some n => getData n.toNat
      | none => R.ofRes (.error .panic)) (set := fun v (s : FontState) => { s with font := { s.font with data := v } })
      (Inv := fun s : FontState => Text s.font.name ∧ Text s.font.path) (P := fun _ => True)
      GP.any (fun _ _ h _ => h)
  exact this s r s' r' hi hb hr

/-- **C51.** A font read from any bytes can be written and read again without loss, if its file fits in a
record. -/
theorem C51_font_reread (bs : Bytes) (s : FontData) (h : FontData.read bs = .ok s)
    (hd : RecordData s.data) : ∃ bs', s.write = .ok bs' ∧ FontData.read bs' = .ok s := by
  unfold FontData.read at h
  split at h
  · next s' hs =>
    cases h
    have hi := readStruct_inv FontData.arms_inv (by decide) hs
    exact C51_font_roundtrip _ ⟨hi.1, hi.2, hd⟩
  · cases h

end Vpin
