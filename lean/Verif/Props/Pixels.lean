import Verif.Model.Pixels
import Verif.Lemmas.Bytes
/-!
# C43, C44: bitmap blocks and pixel order
-/
namespace Vpin

/-- the data as a list of blocks, each preceded by its length -/
def blocksBytes (bs : List Bytes) : Bytes := bs.flatMap fun b => UInt8.ofNat b.length :: b

theorem toBlocksLoop_spec (max : UInt8) (hm : max ≠ 0) :
    ∀ (data blocks block : Bytes) (len : UInt8), block.length = len.toNat → len < max →
      ∃ bs : List Bytes, toBlocksLoop max blocks block len data = blocks ++ blocksBytes bs ∧
        bs.flatten = block ++ data ∧ ∀ b ∈ bs, 1 ≤ b.length ∧ b.length ≤ max.toNat := by
  intro data
  induction data with
  | nil =>
    intro blocks block len hl hlt
    unfold toBlocksLoop
    have hlt' := UInt8.lt_iff_toNat_lt.1 hlt
    by_cases h0 : 0 < len
    · have h0' : 0 < len.toNat := UInt8.lt_iff_toNat_lt.1 h0
      refine ⟨[block], ?_, by simp, ?_⟩
      · rw [if_pos h0]
        have : UInt8.ofNat block.length = len := by rw [hl, UInt8.ofNat_toNat]
        simp [blocksBytes, this]
      · intro b hb
        obtain rfl := List.mem_singleton.1 hb
        omega
    · refine ⟨[], ?_, ?_, by simp⟩
      · rw [if_neg h0]; simp [blocksBytes]
      · have : len.toNat = 0 := by
          have := mt UInt8.lt_iff_toNat_lt.2 h0
          simpa using this
        rw [this] at hl
        have := List.length_eq_zero_iff.1 hl
        simp [this]
  | cons x rest ih =>
    intro blocks block len hl hlt
    have hlt' := UInt8.lt_iff_toNat_lt.1 hlt
    have hmx := max.toNat_lt
    have hlen1 : (len + 1).toNat = len.toNat + 1 := by
      rw [UInt8.toNat_add]
      have : (1 : UInt8).toNat = 1 := rfl
      rw [this]
      omega
    unfold toBlocksLoop
    by_cases he : len + 1 = max
    · simp only [if_pos he]
      obtain ⟨bs, h1, h2, h3⟩ := ih (blocks ++ [len + 1] ++ (block ++ [x])) [] 0 rfl
        (UInt8.lt_iff_toNat_lt.2 (by
          have : max.toNat ≠ 0 := fun h => hm (UInt8.toNat_inj.1 h)
          have z : (0 : UInt8).toNat = 0 := rfl
          omega))
      refine ⟨(block ++ [x]) :: bs, ?_, ?_, ?_⟩
      · rw [h1]
        have : UInt8.ofNat (block ++ [x]).length = len + 1 := by
          rw [← UInt8.toNat_inj, hlen1, ← hl]
          simp
          omega
        simp only [blocksBytes, List.flatMap_cons, this]
        simp
      · simp [h2]
      · intro b hb
        rcases List.mem_cons.1 hb with rfl | hb
        · rw [← he, hlen1, ← hl]; simp
        · exact h3 b hb
    · simp only [if_neg he]
      obtain ⟨bs, h1, h2, h3⟩ := ih blocks (block ++ [x]) (len + 1) (by rw [hlen1, ← hl]; simp)
        (UInt8.lt_iff_toNat_lt.2 (by
          have : (len + 1).toNat ≠ max.toNat := fun h => he (UInt8.toNat_inj.1 h)
          omega))
      exact ⟨bs, h1, by simp [h2], h3⟩

theorem fromBlocks_blocks (bs : List Bytes) (h : ∀ b ∈ bs, b.length < 256) :
    ∀ f, (blocksBytes bs).length ≤ f → fromBlocks f (blocksBytes bs) = .ok bs.flatten := by
  induction bs with
  | nil => intro f _; cases f <;> rfl
  | cons b bs ih =>
    intro f hf
    have hb := h b (by simp)
    have e : blocksBytes (b :: bs) = UInt8.ofNat b.length :: (b ++ blocksBytes bs) := by
      simp [blocksBytes]
    have hn : (UInt8.ofNat b.length).toNat = b.length := by simp; omega
    rw [e] at hf ⊢
    cases f with
    | zero => simp at hf
    | succ f =>
      have := ih (fun b hb => h b (by simp [hb])) f (by simp at hf; omega)
      unfold fromBlocks
      rw [hn, if_neg (by simp), List.drop_left, List.take_left, this]
      rfl

/-- C43: the blocks hold the data, cut into pieces of 1 to 254 bytes. -/
theorem C43_blocks (data : Bytes) :
    ∃ bs : List Bytes, toBlocks 254 data = blocksBytes bs ∧ bs.flatten = data ∧
      ∀ b ∈ bs, 1 ≤ b.length ∧ b.length ≤ 254 := by
  obtain ⟨bs, h1, h2, h3⟩ := toBlocksLoop_spec 254 (by decide) data [] [] 0 rfl (by decide)
  exact ⟨bs, by simpa [toBlocks] using h1, by simpa using h2, h3⟩

/-- C43: joining the blocks gives the data back. -/
theorem C43_blocks_roundtrip (data : Bytes) : fromBlocksAll (toBlocks 254 data) = .ok data := by
  obtain ⟨bs, h1, h2, h3⟩ := C43_blocks data
  unfold fromBlocksAll
  rw [h1, fromBlocks_blocks bs (fun b hb => by have := h3 b hb; omega) _ (Nat.le_refl _), h2]

/-- C43: with a correct LZW coder (external), compressed bitmaps decompress to the original. -/
theorem C43_lzw_roundtrip (toLzw : Bytes → Bytes) (fromLzw : Bytes → Res Bytes)
    (h : ∀ d, fromLzw (toLzw d) = .ok d) (data : Bytes) :
    fromLzwBlocks fromLzw (toLzwBlocks toLzw data) = .ok data := by
  unfold fromLzwBlocks toLzwBlocks
  rw [C43_blocks_roundtrip]
  exact h data

/-- C43: reading blocks always ends (it never runs out of steps), whatever the bytes. -/
theorem C43_from_blocks_terminates (data : Bytes) : fromBlocksAll data ≠ .error .fuel := by
  unfold fromBlocksAll
  have : ∀ (f : Nat) (d : Bytes), d.length ≤ f → fromBlocks f d ≠ .error .fuel := by
    intro f
    induction f with
    | zero =>
      intro d hd
      obtain rfl := List.length_eq_zero_iff.1 (Nat.le_zero.1 hd)
      intro h; cases h
    | succ f ih =>
      intro d hd
      cases d with
      | nil => intro h; cases h
      | cons n rest =>
        unfold fromBlocks
        split
        · intro h; cases h
        · intro h
          have hlen : (rest.drop n.toNat).length ≤ f := by simp at hd ⊢; omega
          split at h
          · cases h
          · next e he =>
            cases h
            exact ih _ hlen he
  exact this _ _ (Nat.le_refl _)

/-- 300 bytes take a full block and one of 46 -/
example : (toBlocks 254 (List.replicate 300 7)).length = 302 := by decide +kernel

/-! ### C44 -/

/-- C44: swapping twice gives the pixels back, for whole pixels. -/
theorem C44_swap_twice (data : Bytes) (h : 4 ∣ data.length) :
    swapRedAndBlue (swapRedAndBlue data) = data := by
  obtain ⟨n, hn⟩ := h
  induction n generalizing data with
  | zero =>
    obtain rfl := List.length_eq_zero_iff.1 hn
    rfl
  | succ n ih =>
    match data, hn with
    | a :: b :: c :: d :: rest, hn =>
      have := ih rest (by simp at hn; omega)
      simp only [swapRedAndBlue, this]
    | [], hn => simp at hn
    | [_], hn => simp at hn; omega
    | [_, _], hn => simp at hn; omega
    | [_, _, _], hn => simp at hn; omega

/-- C44: pixel `i` keeps green and alpha and exchanges red and blue; the number of bytes stays. -/
theorem C44_swap_pixel (data : Bytes) (h : 4 ∣ data.length) :
    (swapRedAndBlue data).length = data.length ∧
    ∀ i, (swapRedAndBlue data)[4 * i]? = data[4 * i + 2]? ∧
      (swapRedAndBlue data)[4 * i + 1]? = data[4 * i + 1]? ∧
      (swapRedAndBlue data)[4 * i + 2]? = data[4 * i]? ∧
      (swapRedAndBlue data)[4 * i + 3]? = data[4 * i + 3]? := by
  obtain ⟨n, hn⟩ := h
  induction n generalizing data with
  | zero =>
    obtain rfl := List.length_eq_zero_iff.1 hn
    exact ⟨rfl, fun i => ⟨rfl, rfl, rfl, rfl⟩⟩
  | succ n ih =>
    match data, hn with
    | a :: b :: c :: d :: rest, hn =>
      have := ih rest (by simp at hn; omega)
      refine ⟨by simp [swapRedAndBlue, this.1], fun i => ?_⟩
      cases i with
      | zero => exact ⟨rfl, rfl, rfl, rfl⟩
      | succ i =>
        have e : 4 * (i + 1) = 4 * i + 4 := by omega
        have e1 : 4 * (i + 1) + 1 = 4 * i + 1 + 4 := by omega
        have e2 : 4 * (i + 1) + 2 = 4 * i + 2 + 4 := by omega
        have e3 : 4 * (i + 1) + 3 = 4 * i + 3 + 4 := by omega
        rw [e1, e2, e3, e]
        exact this.2 i
    | [], hn => simp at hn
    | [_], hn => simp at hn; omega
    | [_, _], hn => simp at hn; omega
    | [_, _, _], hn => simp at hn; omega

/-- C44: an incomplete pixel at the end is dropped. -/
theorem C44_incomplete_pixel_dropped (data : Bytes) :
    (swapRedAndBlue data).length = data.length / 4 * 4 := by
  match data with
  | a :: b :: c :: d :: rest =>
    have := C44_incomplete_pixel_dropped rest
    simp only [swapRedAndBlue, List.length_cons, this]
    omega
  | [] => rfl
  | [_] => simp [swapRedAndBlue]
  | [_, _] => simp [swapRedAndBlue]
  | [_, _, _] => simp [swapRedAndBlue]
termination_by data.length

example : swapRedAndBlue [1, 2, 3, 4, 5, 6, 7, 8] = [3, 2, 1, 4, 7, 6, 5, 8] := by decide

end Vpin
