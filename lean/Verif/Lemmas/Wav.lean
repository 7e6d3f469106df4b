import Verif.Spec.Wav
import Verif.Lemmas.Structs
import Verif.Props.Structs
namespace Vpin

theorem BM.bind_ok {α β : Type} {g : BM α} {k : α → BM β} {bs b1 : Bytes} {v : α}
    (h : g bs = .ok (v, b1)) : (g >>= k) bs = k v b1 := by
  show (do let (a, s') ← g bs; k a s') = _
  rw [h]; rfl

theorem wvTake_rt (p : Bytes) {n : Nat} (h : p.length = n) : BT (wvTake n) p p := by
  intro rest
  unfold wvTake
  rw [if_pos (by simp; omega)]
  simp [← h]

theorem wvU16_rt (x : UInt16) : BT wvU16 (le16 x) x := by
  have := BT.last (k := ofLe16) (wvTake_rt (le16 x) rfl)
  rwa [ofLe16_le16] at this

theorem wvU32_rt (x : UInt32) : BT wvU32 (le32 x) x := by
  have := BT.last (k := ofLe32) (wvTake_rt (le32 x) rfl)
  rwa [ofLe32_le32] at this

theorem wvTake_inv {n : Nat} {bs d rest : Bytes} (h : wvTake n bs = .ok (d, rest)) :
    bs = d ++ rest ∧ d.length = n := by
  unfold wvTake at h
  split at h
  · cases h; exact ⟨(List.take_append_drop n bs).symm, by simp; omega⟩
  · cases h

theorem wvU16_inv {bs rest : Bytes} {x : UInt16} (h : wvU16 bs = .ok (x, rest)) :
    bs = le16 x ++ rest := by
  obtain ⟨d, b, h1, h2⟩ := BM.bind_inv h
  cases h2
  obtain ⟨e, hl⟩ := wvTake_inv h1
  match d, hl with
  | [x, y], _ => rw [le16_ofLe16]; exact e

theorem wvU32_inv {bs rest : Bytes} {x : UInt32} (h : wvU32 bs = .ok (x, rest)) :
    bs = le32 x ++ rest := by
  obtain ⟨d, b, h1, h2⟩ := BM.bind_inv h
  cases h2
  obtain ⟨e, hl⟩ := wvTake_inv h1
  match d, hl with
  | [x, y, z, w], _ => rw [le32_ofLe32]; exact e

theorem wvExpect_rt (p : Bytes) : BT (wvExpect p) p () := by
  have := BT.bind (k := fun bs => if bs = p then Pure.pure () else wvFail) (q := []) (u := ())
    (wvTake_rt p rfl) (by rw [if_pos rfl]; exact BT.pure ())
  rwa [List.append_nil] at this

theorem wvExpect_inv {p bs rest : Bytes} (h : wvExpect p bs = .ok ((), rest)) : bs = p ++ rest := by
  obtain ⟨d, b, h1, h2⟩ := BM.bind_inv h
  obtain ⟨e, hl⟩ := wvTake_inv h1
  by_cases hd : d = p
  · rw [if_pos hd] at h2; cases h2; rw [e, hd]
  · rw [if_neg hd] at h2; cases h2

theorem padded_eq (n : UInt32) :
    padded n = (if n.toNat % 2 = 0 then n.toNat else n.toNat + 1) := by
  unfold padded; split <;> omega

theorem isChunkId_iff (bs : Bytes) : isChunkId bs = true ↔ ∀ b ∈ bs, 0x20 ≤ b ∧ b ≤ 0x7e := by
  simp [isChunkId, List.all_eq_true]

/-- fixed part of the fmt chunk -/
def FmtChunk.fixed (f : FmtChunk) : Bytes :=
  le16 f.format_tag ++ (le16 f.channels ++ (le32 f.samples_per_sec ++ (le32 f.avg_bytes_per_sec ++
  (le16 f.block_align ++ le16 f.bits_per_sample))))

theorem FmtChunk.fixed_length (f : FmtChunk) : f.fixed.length = 16 := by simp [FmtChunk.fixed]

def FmtChunk.ext (f : FmtChunk) : Bytes :=
  match f.extension_size with
  | some e => le16 e ++ f.extension_fields
  | none => []

theorem readFmtFields_short (f : FmtChunk) (h : ¬ 18 ≤ f.fmt_size.toNat)
    (he : f.extension_size = none) (hf : f.extension_fields = []) :
    BT (readFmtFields f.fmt_size) f.fixed f := by
  rw [← List.append_nil f.fixed]
  simp only [FmtChunk.fixed, List.append_assoc]
  unfold readFmtFields
  refine (wvU16_rt f.format_tag).bind <| (wvU16_rt f.channels).bind <|
    (wvU32_rt f.samples_per_sec).bind <| (wvU32_rt f.avg_bytes_per_sec).bind <|
    (wvU16_rt f.block_align).bind <| (wvU16_rt f.bits_per_sample).bind ?_
  rw [if_neg h]
  have : f = ⟨f.fmt_size, f.format_tag, f.channels, f.samples_per_sec,
    f.avg_bytes_per_sec, f.block_align, f.bits_per_sample, none, []⟩ := by
    rw [← he, ← hf]
  exact fun rest => by conv => { rhs; rw [this] }; rfl

theorem readFmtFields_long (f : FmtChunk) (h : 18 ≤ f.fmt_size.toNat) {e : UInt16}
    (he : f.extension_size = some e) (hf : f.extension_fields.length = f.fmt_size.toNat - 18) :
    BT (readFmtFields f.fmt_size) (f.fixed ++ (le16 e ++ f.extension_fields)) f := by
  simp only [FmtChunk.fixed, List.append_assoc]
  unfold readFmtFields
  refine (wvU16_rt f.format_tag).bind <| (wvU16_rt f.channels).bind <|
    (wvU32_rt f.samples_per_sec).bind <| (wvU32_rt f.avg_bytes_per_sec).bind <|
    (wvU16_rt f.block_align).bind <| (wvU16_rt f.bits_per_sample).bind ?_
  rw [if_pos h]
  have : f = ⟨f.fmt_size, f.format_tag, f.channels, f.samples_per_sec,
    f.avg_bytes_per_sec, f.block_align, f.bits_per_sample, some e, f.extension_fields⟩ := by
    rw [← he]
  refine (wvU16_rt e).bind ?_
  have key := BT.last (k := fun fields => FmtChunk.mk f.fmt_size f.format_tag
    f.channels f.samples_per_sec f.avg_bytes_per_sec f.block_align f.bits_per_sample (some e) fields)
    (wvTake_rt _ hf)
  rw [← this] at key
  exact key

theorem readFmtFields_inv {n : UInt32} {bs rest : Bytes} {f : FmtChunk}
    (h0 : readFmtFields n bs = .ok (f, rest)) :
    f.fmt_size = n ∧ bs = f.fixed ++ (f.ext ++ rest) ∧
    ((¬ 18 ≤ n.toNat ∧ f.extension_size = none ∧ f.extension_fields = []) ∨
     (18 ≤ n.toNat ∧ f.extension_size.isSome ∧ f.extension_fields.length = n.toNat - 18)) := by
  obtain ⟨v1, b1, e1, h1⟩ := BM.bind_inv h0
  obtain ⟨v2, b2, e2, h2⟩ := BM.bind_inv h1
  obtain ⟨v3, b3, e3, h3⟩ := BM.bind_inv h2
  obtain ⟨v4, b4, e4, h4⟩ := BM.bind_inv h3
  obtain ⟨v5, b5, e5, h5⟩ := BM.bind_inv h4
  obtain ⟨v6, b6, e6, h6⟩ := BM.bind_inv h5
  have e1 := wvU16_inv e1
  have e2 := wvU16_inv e2
  have e3 := wvU32_inv e3
  have e4 := wvU32_inv e4
  have e5 := wvU16_inv e5
  have e6 := wvU16_inv e6
  subst e1 e2 e3 e4 e5 e6
  have h := h6
  clear h0 h1 h2 h3 h4 h5 h6
  by_cases hn : 18 ≤ n.toNat
  · rw [if_pos hn] at h
    obtain ⟨v7, b7, e7, h7⟩ := BM.bind_inv h
    obtain ⟨v8, b8, e8, h8⟩ := BM.bind_inv h7
    have e7 := wvU16_inv e7
    obtain ⟨e8, hl⟩ := wvTake_inv e8
    subst e7 e8
    cases h8
    exact ⟨rfl, by simp [FmtChunk.fixed, FmtChunk.ext], Or.inr ⟨hn, rfl, hl⟩⟩
  · rw [if_neg hn] at h
    cases h
    exact ⟨rfl, by simp [FmtChunk.fixed, FmtChunk.ext], Or.inl ⟨hn, rfl, rfl⟩⟩

/-- what follows begins with a chunk id -/
def StartsId (rest : Bytes) : Prop := ∃ i r, rest = i ++ r ∧ ChunkId i

theorem strayExtension_id {rest : Bytes} (h : StartsId rest) : strayExtension rest = false := by
  obtain ⟨i, r, rfl, hl, hi⟩ := h
  unfold strayExtension
  split
  · rfl
  · have : (i ++ r).take 4 = i := by rw [← hl]; simp
    rw [this, (isChunkId_iff i).2 hi]; rfl

theorem strayExtension_stray {rest : Bytes} {e : UInt16} (h : StartsId rest)
    (he : ¬ ∀ b ∈ le16 e, 0x20 ≤ b ∧ b ≤ 0x7e) : strayExtension (le16 e ++ rest) = true := by
  obtain ⟨i, r, rfl, hl, hi⟩ := h
  match i, hl with
  | [a, b, c, d], _ =>
    have h1 : ¬ (le16 e ++ ([a, b, c, d] ++ r)).length < 6 := by simp; omega
    have h2 : isChunkId ((le16 e ++ ([a, b, c, d] ++ r)).take 4) = false := by
      rw [Bool.eq_false_iff]
      intro hc
      apply he
      intro x hx
      refine (isChunkId_iff _).1 hc x ?_
      simp [le16] at hx ⊢
      rcases hx with hx | hx <;> simp [hx]
    have h3 : ((le16 e ++ ([a, b, c, d] ++ r)).drop 2).take 4 = [a, b, c, d] := rfl
    unfold strayExtension
    rw [if_neg h1, h2, h3, (isChunkId_iff _).2 hi]
    rfl

theorem strayExtension_inv {bs rest : Bytes} {e : UInt16} (h : strayExtension bs = true)
    (hb : bs = le16 e ++ rest) : StartsId rest ∧ ¬ ∀ b ∈ le16 e, 0x20 ≤ b ∧ b ≤ 0x7e := by
  unfold strayExtension at h
  split at h
  · cases h
  · rename_i hl
    subst hb
    match rest with
    | a :: b :: c :: d :: r =>
      simp only [Bool.and_eq_true, Bool.not_eq_true'] at h
      have h3 : ((le16 e ++ (a :: b :: c :: d :: r)).drop 2).take 4 = [a, b, c, d] := rfl
      have h4 : ((le16 e ++ (a :: b :: c :: d :: r))).take 4 = le16 e ++ [a, b] := rfl
      rw [h3, h4] at h
      have hi := (isChunkId_iff _).1 h.2
      refine ⟨⟨[a, b, c, d], r, rfl, rfl, hi⟩, ?_⟩
      intro hall
      have : isChunkId (le16 e ++ [a, b]) = true := by
        rw [isChunkId_iff]
        intro x hx
        rcases List.mem_append.1 hx with hx | hx
        · exact hall x hx
        · exact hi x (by simp at hx ⊢; rcases hx with rfl | rfl <;> simp)
      rw [this] at h
      exact absurd h.1 (by simp)
    | [] => simp at hl
    | [_] => simp at hl
    | [_, _] => simp at hl
    | [_, _, _] => simp at hl

def FmtChunk.pad (f : FmtChunk) : Bytes := if f.fmt_size.toNat % 2 = 1 then [0] else []

def FmtChunk.OK (f : FmtChunk) : Prop :=
  (f.fmt_size.toNat = 16 ∧ f.extension_size = none ∧ f.extension_fields = []) ∨
  (18 ≤ f.fmt_size.toNat ∧ f.extension_size.isSome ∧
    f.extension_fields.length = f.fmt_size.toNat - 18) ∨
  (f.fmt_size.toNat = 16 ∧ f.extension_fields = [] ∧
    ∃ e, f.extension_size = some e ∧ ¬ ∀ b ∈ le16 e, 0x20 ≤ b ∧ b ≤ 0x7e)

theorem readFmtChunk_ok (f : FmtChunk) (h : f.OK) {rest : Bytes} (hr : StartsId rest) :
    readFmtChunk f.fmt_size (f.fixed ++ (f.ext ++ (f.pad ++ rest))) = .ok (f, rest) := by
  unfold readFmtChunk
  rcases h with ⟨hs, he, hf⟩ | ⟨hs, he, hf⟩ | ⟨hs, hf, e, he, hp⟩
  · rw [if_neg (by omega)]
    have ht := wvTake_rt f.fixed (n := padded f.fmt_size)
      (by rw [f.fixed_length]; simp [padded, hs]) (f.ext ++ (f.pad ++ rest))
    have hfl := readFmtFields_short f (by omega) he hf []
    rw [List.append_nil] at hfl
    have hb : f.ext ++ (f.pad ++ rest) = rest := by simp [FmtChunk.ext, he, FmtChunk.pad, hs]
    show (do let (a, s') ← wvTake (padded f.fmt_size) _; _) = _
    rw [ht]
    show (match readFmtFields f.fmt_size f.fixed with | _ => _ : BM FmtChunk) _ = _
    simp only [hfl, if_neg (show ¬ 18 ≤ f.fmt_size.toNat by omega), hb, strayExtension_id hr]
    rfl
  · rw [if_neg (by omega)]
    obtain ⟨e, he⟩ := Option.isSome_iff_exists.1 he
    have hx : f.ext = le16 e ++ f.extension_fields := by simp [FmtChunk.ext, he]
    have ht := wvTake_rt (f.fixed ++ (f.ext ++ f.pad)) (n := padded f.fmt_size)
      (by
        simp only [List.length_append, f.fixed_length, hx, le16_length, hf, FmtChunk.pad, padded]
        split <;> simp <;> omega) rest
    have hfl := readFmtFields_long f hs he hf f.pad
    rw [← hx, List.append_assoc] at hfl
    show (do let (a, s') ← wvTake (padded f.fmt_size) _; _) = _
    have : f.fixed ++ (f.ext ++ (f.pad ++ rest)) = f.fixed ++ (f.ext ++ f.pad) ++ rest := by simp
    rw [this, ht]
    show (match readFmtFields f.fmt_size (f.fixed ++ (f.ext ++ f.pad)) with | _ => _ : BM FmtChunk) _
      = _
    simp only [hfl, if_pos hs]
    rfl
  · rw [if_neg (by omega)]
    have ht := wvTake_rt f.fixed (n := padded f.fmt_size)
      (by rw [f.fixed_length]; simp [padded, hs]) (f.ext ++ (f.pad ++ rest))
    have hfl := readFmtFields_short { f with extension_size := none } (by simp; omega) rfl hf []
    rw [List.append_nil] at hfl
    have hb : f.ext ++ (f.pad ++ rest) = le16 e ++ rest := by
      simp [FmtChunk.ext, he, FmtChunk.pad, hs, hf]
    have hfix : ({ f with extension_size := none } : FmtChunk).fixed = f.fixed := rfl
    rw [hfix] at hfl
    simp only at hfl
    show (do let (a, s') ← wvTake (padded f.fmt_size) _; _) = _
    rw [ht]
    show (match readFmtFields f.fmt_size f.fixed with | _ => _ : BM FmtChunk) _ = _
    simp only [hfl, if_neg (show ¬ 18 ≤ f.fmt_size.toNat by omega), hb, strayExtension_stray hr hp,
      wvU16_rt e rest, if_true, ← he]

theorem readFmtChunk_inv {n : UInt32} {bs rest : Bytes} {f : FmtChunk}
    (h : readFmtChunk n bs = .ok (f, rest)) :
    f.fmt_size = n ∧ f.OK ∧ ∃ pad, bs = f.fixed ++ (f.ext ++ (pad ++ rest)) ∧
      pad.length = n.toNat % 2 := by
  unfold readFmtChunk at h
  by_cases hn : n.toNat ≠ 16 ∧ n.toNat < 18
  · rw [if_pos hn] at h; cases h
  · rw [if_neg hn] at h
    obtain ⟨chunk, b1, h1, h⟩ := BM.bind_inv h
    obtain ⟨hb, hl⟩ := wvTake_inv h1
    cases hf : readFmtFields n chunk with
    | error e => rw [hf] at h; cases h
    | ok p =>
      obtain ⟨f', pad⟩ := p
      obtain ⟨i1, i2, i3⟩ := readFmtFields_inv hf
      rw [hf] at h
      simp only at h
      have hll : chunk.length = 16 + (f'.ext.length + pad.length) := by
        rw [i2]; simp [f'.fixed_length]
      by_cases h18 : 18 ≤ n.toNat
      · rw [if_pos h18] at h
        cases h
        rcases i3 with ⟨hc, _⟩ | ⟨_, he, hx⟩
        · exact absurd h18 hc
        · refine ⟨i1, Or.inr (Or.inl ⟨by rw [i1]; exact h18, he, by rw [hx, i1]⟩), pad, by rw [hb, i2]; simp, ?_⟩
          obtain ⟨e, he⟩ := Option.isSome_iff_exists.1 he
          have : f.ext.length = 2 + f.extension_fields.length := by simp [FmtChunk.ext, he]
          rw [hl, this, hx] at hll
          unfold padded at hll
          omega
      · have h16 : n.toNat = 16 := by omega
        rw [if_neg h18] at h
        rcases i3 with ⟨_, he, hx⟩ | ⟨hc, _⟩
        · have h0 : f'.ext = [] := by simp [FmtChunk.ext, he]
          have hp : pad = [] := by
            rw [hl, h0] at hll
            unfold padded at hll
            simp at hll
            exact List.eq_nil_of_length_eq_zero (by omega)
          by_cases hst : strayExtension b1 = true
          · simp only [hst, if_true] at h
            cases hu : wvU16 b1 with
            | error e => rw [hu] at h; cases h
            | ok q =>
              obtain ⟨e, r⟩ := q
              rw [hu] at h
              cases h
              have hb1 := wvU16_inv hu
              obtain ⟨_, hne⟩ := strayExtension_inv hst hb1
              refine ⟨i1, Or.inr (Or.inr ⟨by simp [i1, h16], hx, e, rfl, hne⟩), [], ?_, by simp [h16]⟩
              rw [hb, i2, h0, hp, hb1]
              simp [FmtChunk.fixed, FmtChunk.ext, hx]
          · have hst : strayExtension b1 = false := by simpa using hst
            simp only [hst] at h
            cases h
            refine ⟨i1, Or.inl ⟨by rw [i1, h16], he, hx⟩, [], ?_, by simp [h16]⟩
            rw [hb, i2, hp]; simp
        · omega


/-! ### the chunk loop -/

def WavState.add (s : WavState) (b : Bytes) : WavState :=
  if s.fmt.isSome then { s with extra := s.extra ++ b } else { s with pre := s.pre ++ b }

theorem wavLoop_chunk (size : UInt32) (n : Nat) (s : WavState) {c : Chunk} (h : c.WF) (rest : Bytes) :
    wavLoop size (n + 1) s (c.bytes ++ rest) = wavLoop size n (s.add c.bytes) rest := by
  obtain ⟨⟨hl, hi⟩, hf, hd, hp⟩ := h
  rw [← padded_eq] at hp
  have h1 := wvTake_rt c.id hl (le32 c.size ++ (c.payload ++ rest))
  have h2 := wvU32_rt c.size (c.payload ++ rest)
  have h3 := wvTake_rt c.payload hp rest
  have hid : ¬ isChunkId c.id = false := by rw [(isChunkId_iff _).2 hi]; simp
  have e : c.bytes ++ rest = c.id ++ (le32 c.size ++ (c.payload ++ rest)) := by simp [Chunk.bytes]
  rw [e]
  refine (BM.bind_ok h1).trans ?_
  rw [if_neg hid]
  refine (BM.bind_ok h2).trans ?_
  rw [if_neg (show ¬ c.id = dataId from hd), if_neg (show ¬ c.id = fmtId from hf)]
  refine (BM.bind_ok h3).trans ?_
  unfold WavState.add
  split <;> rfl

theorem WavState.add_fmt (s : WavState) (b : Bytes) : (s.add b).fmt = s.fmt := by
  unfold WavState.add; split <;> rfl

theorem WavState.add_add (s : WavState) (a b : Bytes) : (s.add a).add b = s.add (a ++ b) := by
  unfold WavState.add
  cases hs : s.fmt.isSome <;> simp [hs]

theorem WavState.add_nil (s : WavState) : s.add [] = s := by
  unfold WavState.add; split <;> simp

theorem wavLoop_chunks (size : UInt32) (cs : List Chunk) : ∀ (n : Nat) (s : WavState)
    (_ : ∀ c ∈ cs, c.WF) (rest : Bytes),
    wavLoop size (cs.length + n) s (cs.flatMap Chunk.bytes ++ rest)
      = wavLoop size n (s.add (cs.flatMap Chunk.bytes)) rest := by
  induction cs with
  | nil => intro n s _ rest; simp [WavState.add_nil]
  | cons c cs ih =>
    intro n s h rest
    have e : (c :: cs).length + n = (cs.length + n) + 1 := by simp; omega
    rw [e, List.flatMap_cons, List.append_assoc, wavLoop_chunk size _ s (h c (by simp)),
      ih n _ (fun d hd => h d (by simp [hd])), WavState.add_add]

def WavHeader.fmtChunk (h : WavHeader) : FmtChunk :=
  ⟨h.fmt_size, h.format_tag, h.channels, h.samples_per_sec, h.avg_bytes_per_sec, h.block_align,
    h.bits_per_sample, h.extension_size, h.extension_fields⟩

def FmtChunk.header (f : FmtChunk) (size : UInt32) (pre extra : Bytes) (dataSize : UInt32) :
    WavHeader :=
  { size := size, fmt_size := f.fmt_size, format_tag := f.format_tag,
    channels := f.channels, samples_per_sec := f.samples_per_sec,
    avg_bytes_per_sec := f.avg_bytes_per_sec, block_align := f.block_align,
    bits_per_sample := f.bits_per_sample, extension_size := f.extension_size,
    extension_fields := f.extension_fields, pre_fmt_fields := pre,
    extra_fields := extra, data_size := dataSize }

theorem wavLoop_fmt (size : UInt32) (n : Nat) (s : WavState) (hs : s.fmt = none) {f : FmtChunk}
    (h : f.OK) {rest : Bytes} (hr : StartsId rest) :
    wavLoop size (n + 1) s (fmtId ++ (le32 f.fmt_size ++ (f.fixed ++ (f.ext ++ (f.pad ++ rest)))))
      = wavLoop size n { s with fmt := some f } rest := by
  refine (BM.bind_ok (wvTake_rt fmtId rfl _)).trans ?_
  rw [if_neg (by decide)]
  refine (BM.bind_ok (wvU32_rt _ _)).trans ?_
  rw [if_neg (by decide), if_pos rfl, hs]
  exact BM.bind_ok (readFmtChunk_ok f h hr)

theorem wavLoop_data (size : UInt32) (n : Nat) (s : WavState) {f : FmtChunk} (hs : s.fmt = some f)
    (d : UInt32) (rest : Bytes) :
    wavLoop size (n + 1) s (dataId ++ (le32 d ++ rest)) = .ok (f.header size s.pre s.extra d, rest) := by
  refine (BM.bind_ok (wvTake_rt dataId rfl _)).trans ?_
  rw [if_neg (by decide)]
  refine (BM.bind_ok (wvU32_rt _ _)).trans ?_
  rw [if_pos rfl, hs]
  rfl

theorem startsId_chunks {cs : List Chunk} (h : ∀ c ∈ cs, c.WF) {rest : Bytes} (hr : StartsId rest) :
    StartsId (cs.flatMap Chunk.bytes ++ rest) := by
  cases cs with
  | nil => exact hr
  | cons c cs =>
    exact ⟨c.id, le32 c.size ++ c.payload ++ (cs.flatMap Chunk.bytes ++ rest),
      by simp [Chunk.bytes], (h c (by simp)).1⟩

theorem startsId_data (r : Bytes) : StartsId (dataId ++ r) :=
  ⟨dataId, r, rfl, rfl, by decide⟩

theorem chunks_length (cs : List Chunk) : cs.length ≤ (cs.flatMap Chunk.bytes).length := by
  induction cs with
  | nil => simp
  | cons c cs ih => 
    have : 4 ≤ c.bytes.length := by
      simp only [Chunk.bytes, List.length_append, le32_length]; omega
    rw [List.flatMap_cons, List.length_append, List.length_cons]; omega

theorem WavHeader.write_eq (h : WavHeader) (rest : Bytes) :
    h.write ++ rest = riffId ++ (le32 h.size ++ (waveId ++ (h.pre_fmt_fields ++ (fmtId ++
      (le32 h.fmt_size ++ (h.fmtChunk.fixed ++ (h.fmtChunk.ext ++ (h.fmtChunk.pad ++
      (h.extra_fields ++ (dataId ++ (le32 h.data_size ++ rest))))))))))) := by
  cases he : h.extension_size <;>
  simp [WavHeader.write, WavHeader.fmtPayload, FmtChunk.fixed, FmtChunk.ext, FmtChunk.pad,
    WavHeader.fmtChunk, he]

theorem readWavHeader_ok {h : WavHeader} (hw : h.WF) (rest : Bytes) :
    readWavHeader (h.write ++ rest) = .ok (h, rest) := by
  obtain ⟨hf, ⟨c1, h1, e1⟩, ⟨c2, h2, e2⟩⟩ := hw
  have hlen : c1.length + ((c2.length + (0 + 1)) + 1) ≤ (h.write ++ rest).length + 1 := by
    have l1 := chunks_length c1
    have l2 := chunks_length c2
    have : riffId.length = 4 := rfl
    rw [h.write_eq]
    simp only [List.length_append, e1, e2]
    omega
  obtain ⟨k, hk⟩ : ∃ k, (h.write ++ rest).length + 1 = c1.length + ((c2.length + (k + 1)) + 1) :=
    ⟨(h.write ++ rest).length - (c1.length + c2.length + 1), by omega⟩
  unfold readWavHeader
  rw [hk, h.write_eq]
  refine (BM.bind_ok (wvExpect_rt riffId _)).trans ?_
  refine (BM.bind_ok (wvU32_rt _ _)).trans ?_
  refine (BM.bind_ok (wvExpect_rt waveId _)).trans ?_
  have hs : StartsId (h.extra_fields ++ (dataId ++ (le32 h.data_size ++ rest))) := by
    rw [e2]; exact startsId_chunks h2 (startsId_data _)
  rw [e1, wavLoop_chunks h.size c1 _ _ h1]
  have hfm := wavLoop_fmt h.size (c2.length + (k + 1)) (WavState.add ⟨none, [], []⟩
    (c1.flatMap Chunk.bytes)) (WavState.add_fmt _ _) (f := h.fmtChunk) hf hs
  refine hfm.trans ?_
  rw [e2, wavLoop_chunks h.size c2 _ _ h2]
  refine (wavLoop_data h.size k _ (f := h.fmtChunk) (WavState.add_fmt _ _) h.data_size rest).trans ?_
  have : h.fmtChunk.header h.size h.pre_fmt_fields h.extra_fields h.data_size = h := rfl
  conv => rhs; rw [← this, e1, e2]
  simp [WavState.add]

theorem wavLoop_inv (size : UInt32) : ∀ (n : Nat) (s : WavState) (bs rest : Bytes) (h : WavHeader),
    wavLoop size n s bs = .ok (h, rest) →
    ∃ (cs : List Chunk), (∀ c ∈ cs, c.WF) ∧
    ((∃ (f : FmtChunk) (d : UInt32), s.fmt = some f ∧ bs = cs.flatMap Chunk.bytes ++ (dataId ++ (le32 d ++ rest)) ∧
        h = f.header size s.pre (s.extra ++ cs.flatMap Chunk.bytes) d) ∨
     (s.fmt = none ∧ ∃ (f : FmtChunk) (d : UInt32) (pad : Bytes) (c2 : List Chunk), (∀ c ∈ c2, c.WF) ∧ f.OK ∧ pad.length = f.fmt_size.toNat % 2 ∧
        bs = cs.flatMap Chunk.bytes ++ (fmtId ++ (le32 f.fmt_size ++ (f.fixed ++ (f.ext ++ (pad ++
          (c2.flatMap Chunk.bytes ++ (dataId ++ (le32 d ++ rest)))))))) ∧
        h = f.header size (s.pre ++ cs.flatMap Chunk.bytes)
          (s.extra ++ c2.flatMap Chunk.bytes) d)) := by
  intro n
  induction n with
  | zero => intro s bs rest h hr; cases hr
  | succ n ih =>
    intro s bs rest h hr
    obtain ⟨id, b1, r1, hr⟩ := BM.bind_inv hr
    obtain ⟨e1, l1⟩ := wvTake_inv r1
    by_cases hid : isChunkId id = false
    · rw [if_pos hid] at hr; cases hr
    rw [if_neg hid] at hr
    obtain ⟨d, b2, r2, hr⟩ := BM.bind_inv hr
    have e2 := wvU32_inv r2
    have hcid : ChunkId id := ⟨l1, (isChunkId_iff id).1 (by simpa using hid)⟩
    by_cases hd : id = dataId
    · rw [if_pos hd] at hr
      cases hs : s.fmt with
      | none => rw [hs] at hr; cases hr
      | some f =>
        rw [hs] at hr
        cases hr
        exact ⟨[], by simp, Or.inl ⟨f, d, rfl, by simp [e1, e2, hd], by simp [FmtChunk.header]⟩⟩
    rw [if_neg hd] at hr
    by_cases hf : id = fmtId
    · rw [if_pos hf] at hr
      cases hs : s.fmt with
      | some f => rw [hs] at hr; cases hr
      | none =>
        rw [hs] at hr
        obtain ⟨f, b3, r3, hr⟩ := BM.bind_inv hr
        obtain ⟨i1, i2, pad, i3, i4⟩ := readFmtChunk_inv r3
        obtain ⟨cs, hcs, hor⟩ := ih _ _ _ _ hr
        rcases hor with ⟨f', d', j1, j2, j3⟩ | ⟨j1, _⟩
        · cases j1
          refine ⟨[], by simp, Or.inr ⟨rfl, f, d', pad, cs, hcs, i2, by rw [i4, i1], ?_, ?_⟩⟩
          · rw [e1, e2, i3, j2, hf, i1]; simp
          · rw [j3]; simp
        · cases j1
    rw [if_neg hf] at hr
    obtain ⟨pl, b3, r3, hr⟩ := BM.bind_inv hr
    obtain ⟨e3, l3⟩ := wvTake_inv r3
    have hr' : wavLoop size n (s.add (id ++ (le32 d ++ pl))) b3 = .ok (h, rest) := by
      unfold WavState.add
      by_cases hs : s.fmt.isSome = true
      · rw [if_pos hs] at hr ⊢; exact hr
      · rw [if_neg hs] at hr ⊢; exact hr
    have hc : (⟨id, d, pl⟩ : Chunk).WF := ⟨hcid, hf, hd, by rw [← padded_eq]; exact l3⟩
    obtain ⟨cs, hcs, hor⟩ := ih _ _ _ _ hr'
    refine ⟨⟨id, d, pl⟩ :: cs, ?_, ?_⟩
    · intro c hc'
      rcases List.mem_cons.1 hc' with rfl | hc'
      · exact hc
      · exact hcs c hc'
    have hcb : (⟨id, d, pl⟩ : Chunk).bytes = id ++ (le32 d ++ pl) := rfl
    rcases hor with ⟨f, d', j1, j2, j3⟩ | ⟨j1, f, d', pad, c2, k1, k2, k3, k4, k5⟩
    · rw [WavState.add_fmt] at j1
      refine Or.inl ⟨f, d', j1, ?_, ?_⟩
      · rw [e1, e2, e3, j2, List.flatMap_cons, hcb]; simp
      · rw [j3, List.flatMap_cons, hcb]; simp [WavState.add, j1]
    · rw [WavState.add_fmt] at j1
      refine Or.inr ⟨j1, f, d', pad, c2, k1, k2, k3, ?_, ?_⟩
      · rw [e1, e2, e3, k4, List.flatMap_cons, hcb]; simp
      · rw [k5, List.flatMap_cons, hcb]; simp [WavState.add, j1]

theorem readWavHeader_inv {bs rest : Bytes} {h : WavHeader}
    (hr : readWavHeader bs = .ok (h, rest)) :
    h.WF ∧ ∃ pad, pad.length = h.fmt_size.toNat % 2 ∧
      bs = riffId ++ (le32 h.size ++ (waveId ++ (h.pre_fmt_fields ++ (fmtId ++
      (le32 h.fmt_size ++ (h.fmtChunk.fixed ++ (h.fmtChunk.ext ++ (pad ++
      (h.extra_fields ++ (dataId ++ (le32 h.data_size ++ rest))))))))))) := by
  obtain ⟨_, b1, r1, hr⟩ := BM.bind_inv hr
  obtain ⟨sz, b2, r2, hr⟩ := BM.bind_inv hr
  obtain ⟨_, b3, r3, hr⟩ := BM.bind_inv hr
  have e1 := wvExpect_inv r1
  have e2 := wvU32_inv r2
  have e3 := wvExpect_inv r3
  obtain ⟨cs, hcs, hor⟩ := wavLoop_inv _ _ _ _ _ _ hr
  rcases hor with ⟨f, d', j1, _⟩ | ⟨_, f, d', pad, c2, k1, k2, k3, k4, k5⟩
  · cases j1
  · subst k5
    refine ⟨⟨k2, ⟨cs, hcs, by simp [FmtChunk.header]⟩, ⟨c2, k1, by simp [FmtChunk.header]⟩⟩,
      pad, k3, ?_⟩
    rw [e1, e2, e3, k4]
    simp [FmtChunk.header, WavHeader.fmtChunk, FmtChunk.fixed, FmtChunk.ext]

end Vpin
