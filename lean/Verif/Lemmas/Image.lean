import Verif.Lemmas.Tame
import Verif.Lemmas.ItemData
import Verif.Lemmas.Inv
import Verif.Lemmas.Skip
import Verif.Spec.Image
/-!
Reading back images.
-/
namespace Vpin

/-! ### The embedded file -/

theorem getData_rtn {d : Bytes} (n : Nat) (h : n = d.length) (rest : Bytes) (k : Nat) (tag : Tag) (w : Bool) (raw : Bytes) :
    getData n ⟨d ++ rest, k, tag, w, raw⟩ = .ok (d, ⟨rest, 0, tag, w, raw⟩) := by
  subst h
  unfold getData
  refine (R.bind_ok (v := d) (r' := ⟨rest, k, tag, w, raw⟩) ?_).trans rfl
  simp [takeN]

theorem ImageDataJpeg.reads {s : ImageDataJpeg} (h : s.WF) :
    OReads ImageDataJpeg.arms s.ops JpegState.init ⟨s, some (UInt32.ofNat s.data.length)⟩ := by
  unfold ImageDataJpeg.ops
  have hl : s.data.length < 2 ^ 32 := by have : 4 + s.data.length < 2 ^ 32 := h.data; omega
  rw [if_pos hl]
  refine .segTo ⟨⟨[], s.name, none, []⟩, none⟩ (string_rt.req h.name rfl) rfl ?_
  refine .segTo ⟨⟨[], s.name, s.internal_name, []⟩, none⟩
    (string_rt.opt (fun v s => { s with jpeg := { s.jpeg with internal_name := v } })
      h.internal_name rfl rfl) rfl ?_
  refine .segTo ⟨⟨s.path, s.name, s.internal_name, []⟩, none⟩ (string_rt.req h.path rfl) rfl ?_
  refine .segTo ⟨⟨s.path, s.name, s.internal_name, []⟩, some (UInt32.ofNat s.data.length)⟩
    (u32_rt.req trivial rfl) rfl ?_
  refine .segTo ⟨s, some (UInt32.ofNat s.data.length)⟩ ?_ rfl (.done rfl)
  refine OReads.sized (f := _) rfl (by decide) (by decide) h.data ?_
  intro rest tag w raw _
  have e : (UInt32.ofNat s.data.length).toNat = s.data.length := by
    simp only [UInt32.toNat_ofNat']; exact Nat.mod_eq_of_lt hl
  refine (R.bind_ok (getData_rtn _ e rest _ tag w raw)).trans rfl

theorem ImageDataJpeg.write_ok {s : ImageDataJpeg} (h : s.WF) :
    s.write = .ok (bytesOf s.ops ++ endbBytes) := writeBiff_ok _ (ImageDataJpeg.reads h).good

theorem jpeg_reads {j : ImageDataJpeg} (h : j.WF) (s : ImageData) :
    OReads ImageData.arms [jpegOp j] s { s with jpeg := some j } := by
  have e : jpegOp j = .unsized tag!"JPEG" (bytesOf j.ops ++ endbBytes) := by
    unfold jpegOp; rw [ImageDataJpeg.write_ok h]; rfl
  rw [e]
  refine OReads.unsized (f := _) rfl (by decide) (by decide) ?_
  intro rest tag w raw _
  refine (R.bind_ok (getChild_stream (ImageDataJpeg.reads h) rest 0 tag w raw)).trans rfl

/-! ### The raw bitmap -/

theorem le32_8 : le32 8 = [8, 0, 0, 0] := by decide

theorem findSub_altv (d rest : Bytes) (h : NoAltv d) :
    findSub altvBytes (d ++ (le32 8 ++ (altvBytes ++ rest))) = some (d.length + 4) := by
  induction d with
  | nil =>
    rw [le32_8]
    simp [altvBytes, findSub]
  | cons b d ih =>
    have h1 : (b :: d ++ (le32 8 ++ (altvBytes ++ rest))).take altvBytes.length ≠ altvBytes := by
      intro he
      by_cases hl : 4 ≤ (b :: d).length
      · rw [List.take_append_of_le_length (show altvBytes.length ≤ _ from hl)] at he
        exact h (he ▸ (List.take_prefix _ _).isInfix)
      · match d, hl with
        | [], _ => simp [altvBytes, le32_8] at he
        | [_], _ => simp [altvBytes, le32_8] at he
        | [_, _], _ => simp [altvBytes, le32_8] at he
        | _ :: _ :: _ :: _, hl => simp at hl
    have h2 : ¬ (d ++ (le32 8 ++ (altvBytes ++ rest))).length + 1 < altvBytes.length := by
      simp [altvBytes, le32_length]; omega
    have h3 : NoAltv d := fun hi => h (hi.trans (List.suffix_cons _ _).isInfix)
    simp only [List.cons_append] at h1 ⊢
    unfold findSub
    rw [if_neg h1, if_neg h2, ih h3]
    simp

theorem altv_bytes (x : F32) : (wF32 tag!"ALTV" x).bytes = le32 8 ++ (altvBytes ++ le32 x) := rfl

theorem bits_reads {d : Bytes} (h : NoAltv d) (x : F32) (s : ImageData) :
    Reads (dispatch ImageData.arms)
      (le32 4 ++ (tagBytes tag!"BITS" ++ d) ++ (wF32 tag!"ALTV" x).bytes) s
      { s with
        bits := some d
        alpha_test_value := x } := by
  have h2 : Reads (dispatch ImageData.arms) (wF32 tag!"ALTV" x).bytes { s with bits := some d }
      { s with
        bits := some d
        alpha_test_value := x } := by
    have := (f32_rt.req (hs := ImageData.arms) (t := tag!"ALTV") (v := x)
      (set := fun v (s : ImageData) => { s with alpha_test_value := v })
      (s := { s with bits := some d }) trivial rfl).reads
    rw [bytesOf_cons, bytesOf_nil, List.append_nil] at this
    exact this
  intro rest tag w raw fuel hr hf
  cases fuel with
  | zero => simp at hf
  | succ fuel =>
    have hnext := next_record tag!"BITS" (by decide) 0 (by decide)
      (d ++ ((wF32 tag!"ALTV" x).bytes ++ rest)) tag w raw (.inl (by decide))
    have heof : (Rd.isEof ⟨d ++ ((wF32 tag!"ALTV" x).bytes ++ rest), 0, tag!"BITS", w,
        tagBytes tag!"BITS"⟩) = false := by
      simp [Rd.isEof, hr]; decide
    have hst : dispatch ImageData.arms tag!"BITS" s
        ⟨d ++ ((wF32 tag!"ALTV" x).bytes ++ rest), 0, tag!"BITS", w, tagBytes tag!"BITS"⟩
        = .ok ({ s with bits := some d },
          ⟨(wF32 tag!"ALTV" x).bytes ++ rest, 0, tag!"BITS", w, tagBytes tag!"BITS"⟩) := by
      rw [dispatch_some (f := fld (dataUntil altvBytes) fun v s => { s with bits := some v }) rfl]
      refine (R.bind_ok (v := d) (r' := ⟨(wF32 tag!"ALTV" x).bytes ++ rest, 0, tag!"BITS", w,
        tagBytes tag!"BITS"⟩) ?_).trans rfl
      unfold dataUntil
      have e : findSub altvBytes (d ++ ((wF32 tag!"ALTV" x).bytes ++ rest)) = some (d.length + 4) := by
        rw [altv_bytes, List.append_assoc, List.append_assoc]
        exact findSub_altv d _ h
      simp only [e]
      rw [if_neg (by omega), Nat.add_sub_cancel, List.take_left, List.drop_left]
    have e0 : le32 4 ++ (tagBytes tag!"BITS" ++ d) ++ (wF32 tag!"ALTV" x).bytes ++ rest
        = le32 (UInt32.ofNat (4 + 0)) ++ (tagBytes tag!"BITS" ++
          (d ++ ((wF32 tag!"ALTV" x).bytes ++ rest))) := by simp
    obtain ⟨tag', raw', fuel', h3, h4⟩ := h2 rest tag!"BITS" w (tagBytes tag!"BITS") fuel hr (by
      rw [e0] at hf
      simp only [List.length_append, le32_length, tagBytes_length] at hf ⊢
      omega)
    refine ⟨tag', raw', fuel', h3, ?_⟩
    rw [e0, loop_step hnext heof hst, h4]

/-! ### The whole image -/

theorem ImageData.readsHead {s : ImageData} (h : s.Fields) :
    OReads ImageData.arms s.opsHead ImageData.default
      ⟨s.name, s.internal_name, s.path, s.width, s.height, s.link, 0, none, none, none, none, none⟩ := by
  unfold ImageData.opsHead
  refine .segTo ⟨s.name, none, [], 0, 0, none, 0, none, none, none, none, none⟩
    (string_rt.req h.name rfl) rfl ?_
  refine .segTo ⟨s.name, s.internal_name, [], 0, 0, none, 0, none, none, none, none, none⟩
    (string_rt.opt (fun v s => { s with internal_name := v }) h.internal_name rfl rfl) rfl ?_
  refine .segTo ⟨s.name, s.internal_name, s.path, 0, 0, none, 0, none, none, none, none, none⟩
    (string_rt.req h.path rfl) rfl ?_
  refine .segTo ⟨s.name, s.internal_name, s.path, s.width, 0, none, 0, none, none, none, none, none⟩
    (u32_rt.req trivial rfl) rfl ?_
  refine .segTo ⟨s.name, s.internal_name, s.path, s.width, s.height, none, 0, none, none, none, none, none⟩
    (u32_rt.req trivial rfl) rfl ?_
  refine .segTo ⟨s.name, s.internal_name, s.path, s.width, s.height, s.link, 0, none, none, none, none, none⟩
    (u32_rt.opt (fun v s => { s with link := v }) (fun _ _ => trivial) rfl rfl) rfl ?_
  exact .done rfl

/-- the records behind ALTV -/
def ImageData.opsEnd (s : ImageData) : List WOp := List.flatten [
  opt (wData tag!"MD5H") s.md5_hash,
  opt (wBool tag!"OPAQ") s.is_opaque,
  opt (wBool tag!"SIGN") s.is_signed]

theorem md5_rt : FieldRT wData (getData 16) (fun h => h.length = 16) := by
  intro σ hs set s t v hv hne hp hl
  refine OReads.sized hl hv hne (by rw [hp]; decide) ?_
  intro rest tag w raw _
  exact (R.bind_ok (getData_rtn 16 hp.symm rest _ tag w raw)).trans rfl

theorem ImageData.readsEnd {s : ImageData} {b : Option Bytes} {j : Option ImageDataJpeg}
    (h : s.Fields) :
    OReads ImageData.arms s.opsEnd
      ⟨s.name, s.internal_name, s.path, s.width, s.height, s.link, s.alpha_test_value, none, none, j, b,
        none⟩
      { s with
        jpeg := j
        bits := b } := by
  unfold ImageData.opsEnd
  refine .segTo ⟨s.name, s.internal_name, s.path, s.width, s.height, s.link, s.alpha_test_value, none,
      none, j, b, s.md5_hash⟩
    (md5_rt.opt (fun v s => { s with md5_hash := v }) h.md5_hash rfl rfl) rfl ?_
  refine .segTo ⟨s.name, s.internal_name, s.path, s.width, s.height, s.link, s.alpha_test_value,
      s.is_opaque, none, j, b, s.md5_hash⟩
    (bool_rt.opt (fun v s => { s with is_opaque := v }) (fun _ _ => trivial) rfl rfl) rfl ?_
  refine .segTo ⟨s.name, s.internal_name, s.path, s.width, s.height, s.link, s.alpha_test_value,
      s.is_opaque, s.is_signed, j, b, s.md5_hash⟩
    (bool_rt.opt (fun v s => { s with is_signed := v }) (fun _ _ => trivial) rfl rfl) rfl ?_
  exact .done rfl

theorem ImageData.opsTail_eq (s : ImageData) :
    s.opsTail = wF32 tag!"ALTV" s.alpha_test_value :: s.opsEnd := rfl

/-- without raw bitmap -/
theorem ImageData.reads_nobits {s : ImageData} (h : s.Fields) (hb : s.bits = none) :
    OReads ImageData.arms s.ops ImageData.default s := by
  have hj : OReads ImageData.arms (opt jpegOp s.jpeg)
      ⟨s.name, s.internal_name, s.path, s.width, s.height, s.link, 0, none, none, none, none, none⟩
      ⟨s.name, s.internal_name, s.path, s.width, s.height, s.link, 0, none, none, s.jpeg, none, none⟩ := by
    cases hj : s.jpeg with
    | none => exact OReads.nil _ _
    | some j => exact jpeg_reads (h.jpeg j hj) _
  have ha : OReads ImageData.arms [wF32 tag!"ALTV" s.alpha_test_value]
      ⟨s.name, s.internal_name, s.path, s.width, s.height, s.link, 0, none, none, s.jpeg, none, none⟩
      ⟨s.name, s.internal_name, s.path, s.width, s.height, s.link, s.alpha_test_value, none, none,
        s.jpeg, none, none⟩ :=
    f32_rt.req (set := fun v (s : ImageData) => { s with alpha_test_value := v }) trivial rfl
  have he := ImageData.readsEnd (b := none) (j := s.jpeg) h
  unfold ImageData.ops
  rw [hb, ImageData.opsTail_eq]
  refine ((ImageData.readsHead h).append (hj.append (ha.append he))).congr ?_
  rw [← hb]

/-- with a raw bitmap: everything up to the first ALTV is taken for the bitmap -/
theorem ImageData.reads_bits {s : ImageData} (h : s.Fields) {d : Bytes} (hb : s.bits = some d)
    (hn : NoAltv (d ++ bytesOf (opt jpegOp s.jpeg))) :
    OReads ImageData.arms s.ops ImageData.default
      { s with
        bits := some (d ++ bytesOf (opt jpegOp s.jpeg))
        jpeg := none } := by
  have hg := (ImageData.readsHead h).good
  have he := ImageData.readsEnd (b := some (d ++ bytesOf (opt jpegOp s.jpeg))) (j := none) h
  have gj : ∀ op ∈ opt jpegOp s.jpeg, op.Good := by
    cases hj : s.jpeg with
    | none => intro op ho; cases ho
    | some j => exact (jpeg_reads (h.jpeg j hj) ImageData.default).good
  constructor
  · intro op ho
    unfold ImageData.ops at ho
    rw [hb, ImageData.opsTail_eq] at ho
    simp only [List.mem_append, List.mem_cons, opt, List.not_mem_nil, or_false] at ho
    rcases ho with ho | ho | ho | ho | ho
    · exact hg op ho
    · subst ho; exact (show _ ≠ _ by decide)
    · exact gj op ho
    · subst ho; exact ⟨by decide, by rw [le32_length]; decide⟩
    · exact he.good op ho
  · have hr := (ImageData.readsHead h).reads.append ((bits_reads hn s.alpha_test_value _).append he.reads)
    unfold ImageData.ops
    rw [hb, ImageData.opsTail_eq]
    have e : bytesOf (s.opsHead ++ (opt (wDataNoSize tag!"BITS") (some d) ++ (opt jpegOp s.jpeg ++
        wF32 tag!"ALTV" s.alpha_test_value :: s.opsEnd)))
        = bytesOf s.opsHead ++ (le32 4 ++ (tagBytes tag!"BITS" ++ (d ++ bytesOf (opt jpegOp s.jpeg)))
          ++ (wF32 tag!"ALTV" s.alpha_test_value).bytes ++ bytesOf s.opsEnd) := by
      simp [bytesOf, opt, wDataNoSize, WOp.bytes]
    rw [e]
    exact hr

/-! ### What reading can produce -/

theorem getData_gp (n : Nat) : GP (getData n) (fun d => d.length = n) := by
  intro r v r' _ h
  unfold getData at h
  obtain ⟨d, r1, h1, h2⟩ := R.bind_inv h
  obtain ⟨_, r2, _, h3⟩ := R.bind_inv h2
  obtain ⟨rfl, rfl⟩ := R.pure_inv h3
  unfold takeN at h1
  split at h1
  · next hn => cases h1; rw [List.length_take]; exact Nat.min_eq_left hn
  · cases h1

theorem findSub_bound {pat : Bytes} : ∀ {l : Bytes} {n : Nat}, findSub pat l = some n →
    ∀ k, k < n → (l.drop k).take pat.length ≠ pat
  | [], n, h, k, hk => by cases h
  | b :: l, n, h, k, hk => by
    unfold findSub at h
    split at h
    · cases h; omega
    · next hb =>
      split at h
      · cases h
      · cases hf : findSub pat l with
        | none => rw [hf] at h; cases h
        | some m =>
          rw [hf] at h
          cases h
          cases k with
          | zero => exact hb
          | succ k => exact findSub_bound hf k (Nat.lt_of_succ_lt_succ hk)

theorem dataUntil_gp : GP (dataUntil altvBytes) NoAltv := by
  intro r v r' _ h
  unfold dataUntil at h
  split at h
  · cases h
  · next n hn =>
    split at h
    · cases h
    · next h4 =>
      cases h
      rintro ⟨a, b, hab⟩
      have hlen := congrArg List.length hab
      simp only [List.length_append, List.length_take] at hlen
      have h5 : a.length < n := by omega
      apply findSub_bound hn a.length h5
      have h6 : r.rest = a ++ altvBytes ++ b ++ r.rest.drop (n - 4) := by
        rw [hab, List.take_append_drop]
      rw [h6, List.append_assoc, List.append_assoc, List.drop_left, List.take_left]

theorem ImageDataJpeg.arms_inv : ArmsInv (fun s : JpegState => Text s.jpeg.name ∧
    OptP Text s.jpeg.internal_name ∧ Text s.jpeg.path) ImageDataJpeg.arms := by
  unfold ImageDataJpeg.arms
  refine .cons (.fld GP.any fun _ _ h _ => h) <| .cons ?_ <|
    .cons (.fld string_gp fun _ _ h hv => ⟨hv, h.2⟩) <|
    .cons (.fld string_gp fun _ _ h hv => ⟨h.1, h.2.1, hv⟩) <|
    .cons (.fld string_gp fun _ _ h hv => ⟨h.1, OptP.some hv, h.2.2⟩) .nil
  intro s r s' r' hi hb hr
  have := ArmInv.fld (g := match s.size with
      | some n => getData n.toNat
      | none => R.ofRes (.error .panic))
    (set := fun v (s : JpegState) => { s with jpeg := { s.jpeg with data := v } })
    (Inv := fun s : JpegState => Text s.jpeg.name ∧ OptP Text s.jpeg.internal_name ∧ Text s.jpeg.path)
    GP.any (fun _ _ h _ => h)
  exact this s r s' r' hi hb hr

/-- what is known of every image that was read -/
def ImageData.RInv (s : ImageData) : Prop :=
  Text s.name ∧ OptP Text s.internal_name ∧ Text s.path ∧ OptP (fun h => h.length = 16) s.md5_hash ∧
  OptP NoAltv s.bits ∧
  OptP (fun j : ImageDataJpeg => Text j.name ∧ OptP Text j.internal_name ∧ Text j.path) s.jpeg

theorem ImageData.arms_inv : ArmsInv ImageData.RInv ImageData.arms := by
  unfold ImageData.arms
  exact .cons (.fld string_gp fun _ _ h hv => ⟨hv, h.2⟩) <|
    .cons (.fld string_gp fun _ _ h hv => ⟨h.1, h.2.1, hv, h.2.2.2⟩) <|
    .cons (.fld string_gp fun _ _ h hv => ⟨h.1, OptP.some hv, h.2.2⟩) <|
    .cons (.fld GP.any fun _ _ h _ => h) <|
    .cons (.fld GP.any fun _ _ h _ => h) <|
    .cons (.fld GP.any fun _ _ h _ => h) <|
    .cons (.fld GP.any fun _ _ h _ => h) <|
    .cons (.fld GP.any fun _ _ h _ => h) <|
    .cons (.fld dataUntil_gp fun _ _ h hv =>
      ⟨h.1, h.2.1, h.2.2.1, h.2.2.2.1, OptP.some hv, h.2.2.2.2.2⟩) <|
    .cons (.fld (getChild_gp (readWith_gp ImageDataJpeg.arms_inv
        ⟨by decide, OptP.none, by decide⟩)) fun _ _ h hv =>
      ⟨h.1, h.2.1, h.2.2.1, h.2.2.2.1, h.2.2.2.2.1, OptP.some hv⟩) <|
    .cons (.fld GP.any fun _ _ h _ => h) <|
    .cons (.fld (getData_gp 16) fun _ _ h hv =>
      ⟨h.1, h.2.1, h.2.2.1, OptP.some hv, h.2.2.2.2⟩) .nil

theorem ImageData.init_inv : ImageData.default.RInv :=
  ⟨by decide, OptP.none, by decide, OptP.none, OptP.none, OptP.none⟩

end Vpin
