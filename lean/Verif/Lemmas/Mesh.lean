import Verif.Spec.Mesh
import Verif.Lemmas.Bytes
import Verif.Lemmas.Text
import Verif.Lemmas.Res
/-! Helper lemmas about meshes. -/
namespace Vpin

/-! ### Faces -/

theorem readIndex_write2 {i : Int} (h0 : 0 ≤ i) (h : i < 65536) (rest : Bytes) :
    readIndex 2 (writeIndex 2 i ++ rest) = .ok (i, rest) := by
  obtain ⟨n, rfl⟩ := Int.eq_ofNat_of_zero_le h0
  have hn : n < 65536 := by omega
  have e : ((n : Int) % 65536).toNat = n := by omega
  unfold readIndex writeIndex
  rw [if_pos rfl, if_pos rfl, e]
  have h1 : ofLe16 (le16 (UInt16.ofNat n)) = UInt16.ofNat n := ofLe16_le16 _
  simp only [le16] at h1 ⊢
  simp only [List.cons_append, List.nil_append]
  rw [h1]
  simp [UInt16.toNat_ofNat', Nat.mod_eq_of_lt hn]

theorem readIndex_write4 {i : Int} (h0 : 0 ≤ i) (h : i < 4294967296) (rest : Bytes) :
    readIndex 4 (writeIndex 4 i ++ rest) = .ok (i, rest) := by
  obtain ⟨n, rfl⟩ := Int.eq_ofNat_of_zero_le h0
  have hn : n < 4294967296 := by omega
  have e : ((n : Int) % 4294967296).toNat = n := by omega
  unfold readIndex writeIndex
  rw [if_neg (by decide), if_neg (by decide), e]
  have h1 : ofLe32 (le32 (UInt32.ofNat n)) = UInt32.ofNat n := ofLe32_le32 _
  simp only [le32] at h1 ⊢
  simp only [List.cons_append, List.nil_append]
  rw [h1]
  simp [UInt32.toNat_ofNat', Nat.mod_eq_of_lt hn]

theorem writeIndex_length {w : Nat} (h : w = 2 ∨ w = 4) (i : Int) : (writeIndex w i).length = w := by
  rcases h with rfl | rfl <;> rfl

theorem indexWidth_cases (n : Nat) : indexWidth n = 2 ∨ indexWidth n = 4 := by
  unfold indexWidth; split
  · exact .inr rfl
  · exact .inl rfl

def faceBytes (w : Nat) (f : Face) : Bytes := writeIndex w f.i0 ++ writeIndex w f.i1 ++ writeIndex w f.i2

theorem encodeFaces_eq (nv : Nat) (fs : List Face) : encodeFaces nv fs = fs.flatMap (faceBytes (indexWidth nv)) := rfl

theorem faceBytes_length {w : Nat} (h : w = 2 ∨ w = 4) (f : Face) : (faceBytes w f).length = 3 * w := by
  unfold faceBytes
  rw [List.length_append, List.length_append, writeIndex_length h, writeIndex_length h, writeIndex_length h]
  omega

theorem flatMap_length_const {α : Type} (g : α → Bytes) (k : Nat) (h : ∀ a, (g a).length = k) :
    ∀ l : List α, (l.flatMap g).length = k * l.length
  | [] => by simp
  | a :: l => by
    rw [List.flatMap_cons, List.length_append, h, flatMap_length_const g k h l, List.length_cons, Nat.mul_succ]
    omega

theorem readIndex_writeW {w : Nat} (hw : w = 2 ∨ w = 4) {i : Int} (h0 : 0 ≤ i) (h : i < (256 ^ w : Nat)) (rest : Bytes) :
    readIndex w (writeIndex w i ++ rest) = .ok (i, rest) := by
  rcases hw with rfl | rfl
  · exact readIndex_write2 h0 (by omega) rest
  · exact readIndex_write4 h0 (by omega) rest

theorem rawFacesLoop_writeW {w : Nat} (hw : w = 2 ∨ w = 4) :
    ∀ (fs : List Face) (rest : Bytes), (∀ f ∈ fs, f.Below (256 ^ w)) →
      rawFacesLoop w fs.length (fs.flatMap (faceBytes w) ++ rest) = .ok fs
  | [], _, _ => rfl
  | f :: fs, rest, h => by
    obtain ⟨a1, a2, b1, b2, c1, c2⟩ := h f List.mem_cons_self
    have ih := rawFacesLoop_writeW hw fs rest fun g hg => h g (List.mem_cons_of_mem _ hg)
    rw [List.flatMap_cons, List.length_cons]
    unfold rawFacesLoop
    rw [show faceBytes w f ++ fs.flatMap (faceBytes w) ++ rest
      = writeIndex w f.i0 ++ (writeIndex w f.i1 ++ (writeIndex w f.i2
        ++ (fs.flatMap (faceBytes w) ++ rest))) by simp [faceBytes]]
    rw [readIndex_writeW hw a1 a2]
    show (do
      let (v2, bs) ← readIndex w _
      let (v3, bs) ← readIndex w bs
      let fs ← rawFacesLoop w fs.length bs
      pure (Face.mk f.i0 v2 v3 :: fs)) = _
    rw [readIndex_writeW hw b1 b2]
    show (do
      let (v3, bs) ← readIndex w _
      let fs ← rawFacesLoop w fs.length bs
      pure (Face.mk f.i0 f.i1 v3 :: fs)) = _
    rw [readIndex_writeW hw c1 c2]
    show (do
      let fs ← rawFacesLoop w fs.length _
      pure (Face.mk f.i0 f.i1 f.i2 :: fs)) = _
    rw [ih]
    rfl

theorem rawFacesLoop_write {nv : Nat} (hv : nv ≤ 4294967296) (fs : List Face) (rest : Bytes) (h : ∀ f ∈ fs, f.Below nv) :
    rawFacesLoop (indexWidth nv) fs.length (fs.flatMap (faceBytes (indexWidth nv)) ++ rest) = .ok fs := by
  refine rawFacesLoop_writeW (indexWidth_cases nv) fs rest fun f hf => ?_
  obtain ⟨a1, a2, b1, b2, c1, c2⟩ := h f hf
  have : nv ≤ 256 ^ indexWidth nv := by
    unfold indexWidth
    split
    · omega
    · next hn =>
      have : ¬ nv > 65535 := hn
      omega
  exact ⟨a1, by omega, b1, by omega, c1, by omega⟩

/-- what was read is written again as the same bytes -/
theorem readIndex_inv {w : Nat} (hw : w = 2 ∨ w = 4) {bs rest : Bytes} {i : Int} (h : readIndex w bs = .ok (i, rest)) :
    bs = writeIndex w i ++ rest ∧ 0 ≤ i ∧ i < (256 ^ w : Nat) := by
  rcases hw with rfl | rfl
  · unfold readIndex at h
    rw [if_pos rfl] at h
    match bs, h with
    | a :: b :: r, h =>
      cases h
      have h1 := le16_ofLe16 a b
      have h2 := (ofLe16 [a, b]).toNat_lt
      refine ⟨?_, by omega, by omega⟩
      unfold writeIndex
      rw [if_pos rfl]
      have e : (((ofLe16 [a, b]).toNat : Int) % 65536).toNat = (ofLe16 [a, b]).toNat := by omega
      rw [e, UInt16.ofNat_toNat, h1]
      rfl
  · unfold readIndex at h
    rw [if_neg (by decide)] at h
    match bs, h with
    | a :: b :: c :: d :: r, h =>
      cases h
      have h1 := le32_ofLe32 a b c d
      have h2 := (ofLe32 [a, b, c, d]).toNat_lt
      refine ⟨?_, by omega, by omega⟩
      unfold writeIndex
      rw [if_neg (by decide)]
      have e : (((ofLe32 [a, b, c, d]).toNat : Int) % 4294967296).toNat = (ofLe32 [a, b, c, d]).toNat := by omega
      rw [e, UInt32.ofNat_toNat, h1]
      rfl

theorem rawFacesLoop_inv {w : Nat} (hw : w = 2 ∨ w = 4) : ∀ (n : Nat) (bs : Bytes) (fs : List Face),
    rawFacesLoop w n bs = .ok fs → fs.length = n ∧ ∃ rest, bs = fs.flatMap (faceBytes w) ++ rest ∧
      ∀ f ∈ fs, f.Below (256 ^ w)
  | 0, bs, fs, h => by
    cases h
    exact ⟨rfl, bs, rfl, by simp⟩
  | n + 1, bs, fs, h => by
    unfold rawFacesLoop at h
    obtain ⟨⟨v1, b1⟩, h1, h⟩ := Res.unbind h
    obtain ⟨⟨v2, b2⟩, h2, h⟩ := Res.unbind h
    obtain ⟨⟨v3, b3⟩, h3, h⟩ := Res.unbind h
    obtain ⟨fs', h4, h⟩ := Res.unbind h
    cases h
    obtain ⟨l, rest, e, hb⟩ := rawFacesLoop_inv hw n b3 fs' h4
    obtain ⟨e1, p1, q1⟩ := readIndex_inv hw h1
    obtain ⟨e2, p2, q2⟩ := readIndex_inv hw h2
    obtain ⟨e3, p3, q3⟩ := readIndex_inv hw h3
    refine ⟨by simp [l], rest, ?_, ?_⟩
    · rw [e1, e2, e3, e, List.flatMap_cons]
      simp [faceBytes]
    · intro f hf
      rcases List.mem_cons.1 hf with rfl | hf
      · exact ⟨p1, q1, p2, q2, p3, q3⟩
      · exact hb f hf

theorem readIndex_ok {w : Nat} (hw : w = 2 ∨ w = 4) {bs : Bytes} (h : w ≤ bs.length) :
    ∃ i rest, readIndex w bs = .ok (i, rest) ∧ rest.length = bs.length - w := by
  rcases hw with rfl | rfl
  · match bs, h with
    | a :: b :: r, _ => exact ⟨_, r, rfl, by simp⟩
  · match bs, h with
    | a :: b :: c :: d :: r, _ => exact ⟨_, r, rfl, by simp⟩

theorem rawFacesLoop_ok {w : Nat} (hw : w = 2 ∨ w = 4) : ∀ (n : Nat) (bs : Bytes), 3 * w * n ≤ bs.length →
    ∃ fs, rawFacesLoop w n bs = .ok fs
  | 0, bs, _ => ⟨[], rfl⟩
  | n + 1, bs, h => by
    have h' : 3 * w + 3 * w * n ≤ bs.length := by rw [Nat.mul_succ] at h; omega
    obtain ⟨v1, b1, h1, l1⟩ := readIndex_ok hw (bs := bs) (by omega)
    obtain ⟨v2, b2, h2, l2⟩ := readIndex_ok hw (bs := b1) (by omega)
    obtain ⟨v3, b3, h3, l3⟩ := readIndex_ok hw (bs := b2) (by omega)
    obtain ⟨fs, h4⟩ := rawFacesLoop_ok hw n b3 (by omega)
    refine ⟨⟨v1, v2, v3⟩ :: fs, ?_⟩
    unfold rawFacesLoop
    rw [h1]
    show (readIndex w b1 >>= _) = _
    rw [h2]
    show (readIndex w b2 >>= _) = _
    rw [h3]
    show (rawFacesLoop w n b3 >>= _) = _
    rw [h4]
    rfl

/-! ### Vertices -/

theorem Vertex.bytes_length (v : Vertex) : v.bytes.length = 32 := rfl

theorem take4_split (bs : Bytes) (h : 4 ≤ bs.length) : le32 (ofLe32 (bs.take 4)) ++ bs.drop 4 = bs := by
  match bs, h with
  | a :: b :: c :: d :: r, _ =>
    show le32 (ofLe32 [a, b, c, d]) ++ r = _
    rw [le32_ofLe32]
    rfl

theorem f32At_split (bs : Bytes) (i : Nat) (h : 4 * (i + 1) ≤ bs.length) :
    le32 (f32At bs i) ++ bs.drop (4 * (i + 1)) = bs.drop (4 * i) := by
  have := take4_split (bs.drop (4 * i)) (by rw [List.length_drop]; omega)
  rw [List.drop_drop] at this
  exact this

theorem readVertex_inv {bs rest : Bytes} {w : VertexWrapper} (h : readVertex bs = .ok (w, rest)) :
    bs = w.encoded ++ rest ∧ w.encoded = w.vertex.bytes := by
  unfold readVertex at h
  split at h
  · cases h
  · next hl =>
    cases h
    refine ⟨(List.take_append_drop 32 bs).symm, ?_⟩
    have hlen : (bs.take 32).length = 32 := by rw [List.length_take]; omega
    generalize bs.take 32 = b at hlen
    unfold Vertex.bytes
    dsimp only
    have e0 := f32At_split b 0 (by omega)
    have e1 := f32At_split b 1 (by omega)
    have e2 := f32At_split b 2 (by omega)
    have e3 := f32At_split b 3 (by omega)
    have e4 := f32At_split b 4 (by omega)
    have e5 := f32At_split b 5 (by omega)
    have e6 := f32At_split b 6 (by omega)
    have e7 := f32At_split b 7 (by omega)
    have e8 : b.drop (4 * (7 + 1)) = [] := List.drop_eq_nil_of_le (by omega)
    rw [e8, List.append_nil] at e7
    rw [Nat.mul_zero, List.drop_zero] at e0
    simp only [List.append_assoc]
    rw [e7, e6, e5, e4, e3, e2, e1, e0]

theorem rawVertices_inv : ∀ (n : Nat) (bs : Bytes) (vs : List VertexWrapper), rawVertices n bs = .ok vs →
    vs.length = n ∧ (∃ rest, bs = vs.flatMap (·.encoded) ++ rest) ∧ ∀ w ∈ vs, w.encoded = w.vertex.bytes
  | 0, bs, vs, h => by
    cases h
    exact ⟨rfl, ⟨bs, rfl⟩, by simp⟩
  | n + 1, bs, vs, h => by
    unfold rawVertices at h
    obtain ⟨⟨v, b1⟩, h1, h⟩ := Res.unbind h
    obtain ⟨vs', h2, h⟩ := Res.unbind h
    cases h
    obtain ⟨l, ⟨rest, e⟩, hb⟩ := rawVertices_inv n b1 vs' h2
    obtain ⟨e1, e2⟩ := readVertex_inv h1
    refine ⟨by simp [l], ⟨rest, ?_⟩, ?_⟩
    · rw [e1, e, List.flatMap_cons, List.append_assoc]
    · intro w hw
      rcases List.mem_cons.1 hw with rfl | hw
      · exact e2
      · exact hb w hw

theorem f32At_le32 (x : F32) (rest : Bytes) : f32At (le32 x ++ rest) 0 = x := by
  unfold f32At
  rw [Nat.mul_zero, List.drop_zero]
  show ofLe32 ((le32 x ++ rest).take 4) = x
  rw [List.take_left' (le32_length x), ofLe32_le32]

theorem f32At_skip (x : F32) (rest : Bytes) (i : Nat) : f32At (le32 x ++ rest) (i + 1) = f32At rest i := by
  unfold f32At
  rw [show 4 * (i + 1) = 4 + 4 * i by omega, ← List.drop_drop, List.drop_left' (le32_length x)]

theorem readVertex_bytes (v : Vertex) (rest : Bytes) :
    readVertex (v.bytes ++ rest) = .ok (⟨v.bytes, v⟩, rest) := by
  have hl := v.bytes_length
  unfold readVertex
  rw [if_neg (by rw [List.length_append]; omega)]
  have h1 : (v.bytes ++ rest).take 32 = v.bytes := List.take_left' hl
  have h2 : (v.bytes ++ rest).drop 32 = rest := List.drop_left' hl
  dsimp only
  rw [h1, h2]
  have e : v.bytes = le32 v.x ++ (le32 v.y ++ (le32 v.z ++ (le32 v.nx ++ (le32 v.ny ++ (le32 v.nz
      ++ (le32 v.tu ++ (le32 v.tv ++ []))))))) := by simp [Vertex.bytes]
  have : Vertex.mk (f32At v.bytes 0) (f32At v.bytes 1) (f32At v.bytes 2) (f32At v.bytes 3) (f32At v.bytes 4)
      (f32At v.bytes 5) (f32At v.bytes 6) (f32At v.bytes 7) = v := by
    rw [e]
    simp only [f32At_le32, f32At_skip]
  rw [this]

theorem rawVertices_bytes : ∀ (vs : List VertexWrapper) (rest : Bytes), (∀ w ∈ vs, w.encoded = w.vertex.bytes) →
    rawVertices vs.length (vs.flatMap (·.encoded) ++ rest) = .ok vs
  | [], _, _ => rfl
  | w :: vs, rest, h => by
    have ih := rawVertices_bytes vs rest fun x hx => h x (List.mem_cons_of_mem _ hx)
    have hw := h w List.mem_cons_self
    rw [List.flatMap_cons, List.length_cons, List.append_assoc]
    unfold rawVertices
    rw [hw, readVertex_bytes]
    show (rawVertices vs.length _ >>= fun vs => pure (⟨w.vertex.bytes, w.vertex⟩ :: vs)) = _
    rw [ih]
    show Except.ok (VertexWrapper.mk w.vertex.bytes w.vertex :: vs) = Except.ok (w :: vs)
    rw [← hw]

theorem readVertex_ok {bs : Bytes} (h : 32 ≤ bs.length) : ∃ w, readVertex bs = .ok (w, bs.drop 32) := by
  unfold readVertex
  rw [if_neg (by omega)]
  exact ⟨_, rfl⟩

theorem rawVertices_ok : ∀ (n : Nat) (bs : Bytes), 32 * n ≤ bs.length → ∃ vs, rawVertices n bs = .ok vs
  | 0, _, _ => ⟨[], rfl⟩
  | n + 1, bs, h => by
    obtain ⟨w, h1⟩ := readVertex_ok (bs := bs) (by omega)
    obtain ⟨vs, h2⟩ := rawVertices_ok n (bs.drop 32) (by rw [List.length_drop]; omega)
    refine ⟨w :: vs, ?_⟩
    unfold rawVertices
    rw [h1]
    show (rawVertices n _ >>= _) = _
    rw [h2]
    rfl

/-! ### Frames -/

theorem FrameVertex.bytes_length (v : FrameVertex) : v.bytes.length = 24 := rfl

theorem readFrameVertex_bytes (v : FrameVertex) (rest : Bytes) :
    readFrameVertex (v.bytes ++ rest) = .ok (v, rest) := by
  have hl := v.bytes_length
  unfold readFrameVertex
  rw [if_neg (by rw [List.length_append]; omega), List.drop_left' hl]
  have e : v.bytes ++ rest = le32 v.x ++ (le32 v.y ++ (le32 v.z ++ (le32 v.nx ++ (le32 v.ny ++ (le32 v.nz
      ++ rest))))) := by simp [FrameVertex.bytes]
  have : FrameVertex.mk (f32At (v.bytes ++ rest) 0) (f32At (v.bytes ++ rest) 1) (f32At (v.bytes ++ rest) 2)
      (f32At (v.bytes ++ rest) 3) (f32At (v.bytes ++ rest) 4) (f32At (v.bytes ++ rest) 5) = v := by
    rw [e]
    simp only [f32At_le32, f32At_skip]
  rw [this]

theorem readFrameLoop_bytes : ∀ (vs : List FrameVertex) (rest : Bytes),
    readFrameLoop vs.length (vs.flatMap FrameVertex.bytes ++ rest) = .ok vs
  | [], _ => rfl
  | v :: vs, rest => by
    rw [List.flatMap_cons, List.length_cons, List.append_assoc]
    unfold readFrameLoop
    rw [readFrameVertex_bytes]
    show (readFrameLoop vs.length _ >>= _) = _
    rw [readFrameLoop_bytes vs rest]
    rfl

theorem readFrameVertex_inv {bs rest : Bytes} {v : FrameVertex} (h : readFrameVertex bs = .ok (v, rest)) :
    bs = v.bytes ++ rest := by
  unfold readFrameVertex at h
  split at h
  · cases h
  · next hl =>
    cases h
    unfold FrameVertex.bytes
    dsimp only
    have e0 := f32At_split bs 0 (by omega)
    have e1 := f32At_split bs 1 (by omega)
    have e2 := f32At_split bs 2 (by omega)
    have e3 := f32At_split bs 3 (by omega)
    have e4 := f32At_split bs 4 (by omega)
    have e5 := f32At_split bs 5 (by omega)
    rw [Nat.mul_zero, List.drop_zero] at e0
    simp only [List.append_assoc]
    rw [show (24 : Nat) = 4 * (5 + 1) by rfl, e5, e4, e3, e2, e1, e0]

theorem readFrameLoop_inv : ∀ (n : Nat) (bs : Bytes) (vs : List FrameVertex), readFrameLoop n bs = .ok vs →
    vs.length = n ∧ ∃ rest, bs = vs.flatMap FrameVertex.bytes ++ rest
  | 0, bs, vs, h => by
    cases h
    exact ⟨rfl, bs, rfl⟩
  | n + 1, bs, vs, h => by
    unfold readFrameLoop at h
    obtain ⟨⟨v, b1⟩, h1, h⟩ := Res.unbind h
    obtain ⟨vs', h2, h⟩ := Res.unbind h
    cases h
    obtain ⟨l, rest, e⟩ := readFrameLoop_inv n b1 vs' h2
    refine ⟨by simp [l], rest, ?_⟩
    rw [readFrameVertex_inv h1, e, List.flatMap_cons, List.append_assoc]

end Vpin
