import Verif.Lemmas.Image
/-!
C15: images embedded in a table file.
-/
namespace Vpin

/-- **C15.** An image with an embedded file (of any contents), a link, or a raw bitmap without the
letters ALTV in its compressed data, is written and read back equal. -/
theorem C15_image_roundtrip (s : ImageData) (h : s.WF) :
    ∃ bs, s.write = .ok bs ∧ ImageData.read bs = .ok s := by
  cases hb : s.bits with
  | none => exact (ImageData.reads_nobits h.toFields hb).roundtrip
  | some d =>
    have hj : s.jpeg = none := h.one.resolve_left (by rw [hb]; simp)
    have hr := ImageData.reads_bits h.toFields hb (by
      rw [hj]
      show NoAltv (d ++ [])
      rw [List.append_nil]
      exact h.bits d hb)
    refine (hr.congr ?_).roundtrip
    rw [hj]
    show ({ s with
      bits := some (d ++ [])
      jpeg := none } : ImageData) = s
    rw [List.append_nil, ← hb, ← hj]

theorem ImageData.sample_fields : ImageData.sample.Fields :=
  ⟨by decide, OptP.some (by decide), by decide, OptP.some (by decide),
    OptP.some ⟨by decide, OptP.some (by decide), by decide, by decide⟩⟩

/-- an image with an embedded file that contains the letters ALTV and ENDB -/
example : ImageData.sample.WF := ⟨ImageData.sample_fields, OptP.none, .inl rfl⟩

/-- an image with a raw bitmap -/
example : ImageData.sampleBits.WF :=
  ⟨⟨by decide, OptP.some (by decide), by decide, OptP.some (by decide), OptP.none⟩,
    OptP.some (by decide), .inr rfl⟩

/-- **C15.** An image read from any bytes can be written and read again without loss, if it does not
have a raw bitmap and an embedded file at once and the embedded file fits in a record. (Its bitmap can
never contain the letters ALTV.) -/
theorem C15_image_reread (bs : Bytes) (s : ImageData) (h : ImageData.read bs = .ok s)
    (hone : s.bits = none ∨ s.jpeg = none) (hd : OptP (fun j => RecordData j.data) s.jpeg) :
    ∃ bs', s.write = .ok bs' ∧ ImageData.read bs' = .ok s := by
  have hi : s.RInv := readStruct_inv ImageData.arms_inv ImageData.init_inv h
  exact C15_image_roundtrip s
    ⟨⟨hi.1, hi.2.1, hi.2.2.1, hi.2.2.2.1, fun j hj =>
      ⟨(hi.2.2.2.2.2 j hj).1, (hi.2.2.2.2.2 j hj).2.1, (hi.2.2.2.2.2 j hj).2.2, hd j hj⟩⟩,
      hi.2.2.2.2.1, hone⟩

/-- **C15**, what happens outside the condition: when an image has a raw bitmap and an embedded file,
reading takes both for the bitmap and loses the file. -/
theorem C15_bitmap_swallows_file (s : ImageData) (d : Bytes) (j : ImageDataJpeg) (h : s.Fields)
    (hb : s.bits = some d) (hj : s.jpeg = some j) (hn : NoAltv (d ++ (jpegOp j).bytes)) :
    ∃ bs, s.write = .ok bs ∧ ImageData.read bs = .ok { s with
      bits := some (d ++ (jpegOp j).bytes)
      jpeg := none } := by
  have e : bytesOf (opt jpegOp s.jpeg) = (jpegOp j).bytes := by
    rw [hj]; simp [bytesOf, opt]
  have := ImageData.reads_bits h hb (by rw [e]; exact hn)
  rw [e] at this
  exact this.roundtrip

/-- such an image -/
example : let s := { ImageData.sample with
      bits := some [1, 2]
      jpeg := some ⟨[], [], none, [3]⟩ }
    s.Fields ∧ NoAltv ([1, 2] ++ (jpegOp ⟨[], [], none, [3]⟩).bytes) := by
  refine ⟨⟨by decide, OptP.some (by decide), by decide, OptP.some (by decide),
    OptP.some ⟨by decide, OptP.none, by decide, by decide⟩⟩, by decide +kernel⟩

/-- **C15** is false for a raw bitmap that contains the letters ALTV: here the image read back has
another bitmap. -/
theorem C15_altv_counterexample :
    let s := { ImageData.default with bits := some ([9, 9, 9, 9] ++ altvBytes ++ [0, 0, 0x80, 0x3f]) }
    (s.write >>= ImageData.read) ≠ .ok s := by
  decide +kernel

/-! ### C07 for images -/

theorem ImageDataJpeg.arms_tame : ArmsTame ImageDataJpeg.arms := by
  unfold ImageDataJpeg.arms
  exact .cons (fun _ => u32_tame.fld) <|
    .cons (fun s => Tame.fld (by
      cases s.size with
      | none => exact Tame.ofRes _
      | some n => exact getData_tame _)) <|
    .cons (fun _ => string_tame.fld) <| .cons (fun _ => string_tame.fld) <|
    .cons (fun _ => string_tame.fld) .nil

theorem dataUntil_mono (pat : Bytes) : Mono (dataUntil pat) := by
  intro r
  unfold dataUntil
  split
  · exact ⟨(fun h => by cases h), fun v r' h => by cases h⟩
  · split
    · exact ⟨(fun h => by cases h), fun v r' h => by cases h⟩
    · refine ⟨(fun h => by cases h), fun v r' h => ?_⟩
      cases h
      simp

theorem Mono.fld {σ α : Type} {g : R α} {set : α → σ → σ} {s : σ} (h : Mono g) :
    Mono (Vpin.fld g set s) := by
  intro r
  constructor
  · intro he
    have he : (g >>= fun v => pure (set v s)) r = _ := he
    cases hg : g r with
    | error e => rw [R.bind_err hg] at he; cases he; exact (h r).1 hg
    | ok p => rw [R.bind_ok (v := p.1) (r' := p.2) hg] at he; cases he
  · intro v r' he
    obtain ⟨v', r1, h1, h2⟩ := R.bind_inv he
    obtain ⟨-, rfl⟩ := R.pure_inv h2
    exact (h r).2 v' _ h1

theorem ImageData.arms_mono (t : Tag) (s : ImageData) : Mono (dispatch ImageData.arms t s) := by
  have hm : ∀ x ∈ ImageData.arms, Mono (x.2 s) := by
    unfold ImageData.arms
    simp only [List.forall_mem_cons]
    exact ⟨string_tame.mono.fld, string_tame.mono.fld, string_tame.mono.fld, u32_tame.mono.fld,
      u32_tame.mono.fld, f32_tame.mono.fld, bool_tame.mono.fld, bool_tame.mono.fld,
      (dataUntil_mono _).fld,
      (getChild_tame (readWith_tame ImageDataJpeg.arms_tame _)).mono.fld, u32_tame.mono.fld,
      (getData_tame 16).mono.fld, by simp⟩
  unfold dispatch
  split
  · next f hf => exact hm _ (lookup_mem hf)
  · split
    · next f hf => exact hm _ (lookup_mem hf)
    · exact (Tame.skipTag.bind fun _ => Tame.pure s).mono

/-- **C07.** Reading any bytes as an image ends with a value, a panic or an input error. -/
theorem C07_image_read_terminates (data : Bytes) : ImageData.read data ≠ .error .fuel := by
  intro h
  unfold ImageData.read readStruct readWith at h
  have := (loop_fuelM ImageData.arms_mono ((Rd.new data).rest.length + 1)
    ((Rd.new data).rest.length + 1) ImageData.default (Rd.new data) (Nat.lt_succ_self _)
    (Nat.lt_succ_self _)).2
  split at h
  · cases h
  · next e he => cases h; exact this he

end Vpin
