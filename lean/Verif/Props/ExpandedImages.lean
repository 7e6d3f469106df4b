import Verif.Lemmas.ExpandedFs
import Verif.Lemmas.ExpandedJson
import Verif.Lemmas.GameItemJson
import Verif.Lemmas.Gltf
import Verif.Props.Pixels
import Verif.Spec.Expanded
/-
C50: an image of an expanded table is restored from its description and its file.
-/
namespace Vpin
variable (E : ExpandEnv)

theorem entry_shape (s : ImageData) (d : Option Str) : ∃ w h, s.entry E d =
    { ImageDataJson.ofImage s with name_dedup := d, width := w, height := h } := by
  unfold ImageData.entry
  cases s.link.isSome
  · cases s.jpeg with
    | none => exact ⟨none, none, rfl⟩
    | some j =>
      dsimp only
      cases E.dims (s.file d) j.data <;> exact ⟨_, _, rfl⟩
  · cases s.jpeg with
    | none => exact ⟨_, _, rfl⟩
    | some j =>
      dsimp only
      cases E.dims (s.file d) j.data <;> exact ⟨_, _, rfl⟩

theorem entry_name (s : ImageData) (d : Option Str) : (s.entry E d).name = s.name ∧ (s.entry E d).path = s.path ∧
    (s.entry E d).link = s.link ∧ (s.entry E d).name_dedup = d ∧
    (s.entry E d).alpha_test_value = if s.alpha_test_value = alphaTestDefault then none else some s.alpha_test_value := by
  obtain ⟨w, h, e⟩ := entry_shape E s d
  rw [e]
  exact ⟨rfl, rfl, rfl, rfl, rfl⟩

/-- everything but the size and the data -/
theorem entry_toImage (s : ImageData) (d : Option Str) (w h : UInt32) (bits : Option Bytes)
    (hok : s.JsonOk E.J.keeps) : (s.entry E d).toImage w h bits = { s with
      width := w, height := h, bits := bits,
      jpeg := if eqIgnoreAsciiCase s.ext "bmp".toList || s.isLink then none
        else some { path := (s.jpeg.map (·.path)).getD s.path
                    name := (s.jpeg.map (·.name)).getD s.name
                    internal_name := s.jpeg.bind (·.internal_name)
                    data := [] } } := by
  have h1 : (if s.alpha_test_value = alphaTestDefault then none else some s.alpha_test_value).getD alphaTestDefault
      = s.alpha_test_value := by
    split
    · next h => exact h.symm
    · rfl
  have h2 : (s.md5_hash.map hexEncode).bind md5OfText = s.md5_hash := by
    cases hm : s.md5_hash with
    | none => rfl
    | some b => exact md5_back (hok.hash b hm)
  have h3 : (s.jpeg.bind fun j => if j.name = s.name then none else some j.name).getD s.name
      = (s.jpeg.map (·.name)).getD s.name := by
    cases s.jpeg with
    | none => rfl
    | some j =>
      show (if j.name = s.name then none else some j.name).getD s.name = j.name
      split
      · next h => exact h.symm
      · rfl
  have h4 : (s.jpeg.bind fun j => if j.path = s.path then none else some j.path).getD s.path
      = (s.jpeg.map (·.path)).getD s.path := by
    cases s.jpeg with
    | none => rfl
    | some j =>
      show (if j.path = s.path then none else some j.path).getD s.path = j.path
      split
      · next h => exact h.symm
      · rfl
  have key : ∀ wd ht, ({ ImageDataJson.ofImage s with name_dedup := d, width := wd, height := ht }).toImage w h bits
      = { s with
      width := w, height := h, bits := bits,
      jpeg := if eqIgnoreAsciiCase s.ext "bmp".toList || s.isLink then none
        else some { path := (s.jpeg.map (·.path)).getD s.path
                    name := (s.jpeg.map (·.name)).getD s.name
                    internal_name := s.jpeg.bind (·.internal_name)
                    data := [] } } := by
    intro wd ht
    unfold ImageDataJson.toImage ImageDataJson.ofImage
    dsimp only
    rw [h1, h2, h3, h4]
    congr 1
    show (if !(eqIgnoreAsciiCase s.ext "bmp".toList) && !s.isLink then _ else _) = _
    cases eqIgnoreAsciiCase s.ext "bmp".toList <;> cases s.isLink <;> rfl
  obtain ⟨wd, ht, e⟩ := entry_shape E s d
  rw [e]
  exact key wd ht

/-- the size of an embedded file -/
theorem entry_size (s : ImageData) (d : Option Str) (j : ImageDataJpeg) (hj : s.jpeg = some j) :
    (s.entry E d).width.or ((E.dims (s.file d) j.data).map (·.1)) = some s.width ∧
    (s.entry E d).height.or ((E.dims (s.file d) j.data).map (·.2)) = some s.height := by
  unfold ImageData.entry
  rw [hj]
  dsimp only
  cases hd : E.dims (s.file d) j.data with
  | none => split <;> exact ⟨rfl, rfl⟩
  | some x =>
    obtain ⟨w, h⟩ := x
    dsimp only
    split
    · exact ⟨rfl, rfl⟩
    · dsimp only
      constructor
      · split
        · next e => rw [e]; rfl
        · rfl
      · split
        · next e => rw [e]; rfl
        · rfl

theorem file_of_entry (s : ImageData) (d : Option Str) :
    fileName ((s.entry E d).name_dedup.getD (s.entry E d).name) (s.entry E d).ext = s.file d := by
  obtain ⟨h1, h2, -, h4, -⟩ := entry_name E s d
  unfold ImageDataJson.ext ImageData.file ImageData.ext
  rw [h1, h2, h4]

theorem anyTransparent_false : ∀ (n : Nat) (px : Bytes), px.length = 4 * n → anyTransparent px = false →
    ∀ i < n, px[4 * i + 3]? = some 255
  | 0, _, _, _ => nofun
  | n + 1, px, hl, ht => by
    match px, hl with
    | a :: b :: c :: d :: rest, hl =>
      intro i hi
      unfold anyTransparent at ht
      rw [Bool.or_eq_false_iff] at ht
      cases i with
      | zero =>
        have : d = 255 := by simpa using ht.1
        rw [this]; rfl
      | succ i =>
        have := anyTransparent_false n rest (by simp only [List.length_cons] at hl; omega) ht.2 i (by omega)
        rw [show 4 * (i + 1) + 3 = (4 * i + 3) + 1 + 1 + 1 + 1 by omega]
        simpa using this

/-- a bitmap is read back with its size and its pixels -/
theorem bmp_back (bits px : Bytes) (w h : UInt32) (h1 : fromLzwBlocks E.fromLzw bits = .ok px)
    (hl : px.length = 4 * (w.toNat * h.toNat)) (hf : E.bmp.fits w h) :
    ∃ bs, bmpFile E bits w h = .ok bs ∧ readBmp E bs = .ok (w, h, toLzwBlocks E.toLzw px) := by
  have hd : 4 ∣ px.length := ⟨_, hl⟩
  obtain ⟨c1, c2⟩ := C44_swap_pixel px hd
  obtain ⟨bs, b1, b2⟩ := E.bmp.decode_encode (anyTransparent px) w h (swapRedAndBlue px) hf (by rw [c1, hl]) (by
    intro ht i hi
    rw [(c2 i).2.2.2]
    exact anyTransparent_false _ px hl ht i hi)
  refine ⟨bs, ?_, ?_⟩
  · unfold bmpFile
    rw [Res.thenOk h1]
    dsimp only
    rw [show ensure (decide (4 * (w.toNat * h.toNat) ≤ (swapRedAndBlue px).length)) .panic = .ok () by
      rw [c1, hl, decide_eq_true (Nat.le_refl _)]; rfl, Res.thenOk rfl,
      List.take_of_length_le (by rw [c1, hl]; exact Nat.le_refl _)]
    exact b1
  · unfold readBmp
    rw [Res.thenOk b2]
    show Except.ok _ = _
    rw [C44_swap_twice px hd]

/-- **C50** The description of an image as it is in `images.json`, and the file of the image if it has one, give the
image back: exactly, but for a bitmap, whose compressed pixels may differ and decompress to the same. -/
theorem C50_image_restored (s : ImageData) (d : Option Str) (hok : s.Expandable E) (dir : Str) (fs : Files)
    (hfile : ∀ bs, s.dataSteps E (joinPath dir (s.file d)) = [.write (joinPath dir (s.file d)) bs] →
      fs.get (joinPath dir (s.file d)) = some bs) :
    readJson E.J jImage (writeJson E.J jImage (s.entry E d)) = .ok (s.entry E d) ∧
    ∃ s', readImage E dir fs (s.entry E d) = .ok s' ∧ SameImage E s s' ∧ (s.bits = none → s' = s) := by
  obtain ⟨n1, n2, n3, n4, n5⟩ := entry_name E s d
  have eL : (s.entry E d).isLink = s.isLink := by unfold ImageDataJson.isLink ImageData.isLink; rw [n3]
  have eB : (s.entry E d).isBmp = eqIgnoreAsciiCase s.ext "bmp".toList := by
    unfold ImageDataJson.isBmp ImageDataJson.ext ImageData.ext; rw [n2]
  constructor
  · refine readJson_writeJson E.J jImage_ok ?_
    rw [n5]
    intro v hv
    split at hv
    · cases hv
    · cases hv; exact hok.json.alpha
  rcases hok.data with ⟨hl, hj, hb⟩ | ⟨hl, j, hj, hb, hx⟩ | ⟨hl, hj, hx, bits, px, hb, hz, hlen, hfit⟩
  · -- a link
    have hs : s.link.isSome = true := by
      unfold ImageData.isLink at hl
      rw [eq_of_beq hl]; rfl
    have hw : (s.entry E d).width = some s.width ∧ (s.entry E d).height = some s.height := by
      unfold ImageData.entry
      rw [hj]
      dsimp only
      rw [if_pos hs]
      exact ⟨rfl, rfl⟩
    refine ⟨s, ?_, ⟨rfl, rfl⟩, fun _ => rfl⟩
    unfold readImage
    rw [eL, hl, if_pos rfl, hw.1, hw.2, entry_toImage E s d _ _ _ hok.json, hl, Bool.or_true, if_pos rfl]
    rw [← hj, ← hb]
    rfl
  · -- an embedded file
    have hst : s.dataSteps E (joinPath dir (s.file d)) = [.write (joinPath dir (s.file d)) j.data] := by
      unfold ImageData.dataSteps
      rw [hl, hj]
      rfl
    have hf := hfile _ hst
    refine ⟨s, ?_, ⟨rfl, rfl⟩, fun _ => rfl⟩
    obtain ⟨z1, z2⟩ := entry_size E s d j hj
    unfold readImage
    rw [eL, hl]
    simp only [Bool.false_eq_true, if_false]
    rw [file_of_entry, hf]
    simp only
    rw [eB, hx]
    simp only [Bool.false_eq_true, if_false]
    unfold readJpeg
    dsimp only
    rw [z1, z2, orIo_bind, orIo_bind, entry_toImage E s d _ _ _ hok.json, hl, hx, hj]
    simp only [Bool.or_self, Bool.false_eq_true, if_false]
    show Except.ok _ = Except.ok s
    cases s
    simp only at hj hb ⊢
    rw [hj, hb]
    rfl
  · -- a bitmap
    obtain ⟨bs, b1, b2⟩ := bmp_back E bits px s.width s.height hz hlen hfit
    have hst : s.dataSteps E (joinPath dir (s.file d)) = [.write (joinPath dir (s.file d)) bs] := by
      unfold ImageData.dataSteps
      rw [hl, hj, hb]
      dsimp only
      rw [hx, b1]
      rfl
    have hf := hfile _ hst
    refine ⟨{ s with bits := some (toLzwBlocks E.toLzw px) }, ?_, ⟨rfl, ?_⟩, fun h => by rw [hb] at h; cases h⟩
    · unfold readImage
      rw [eL, hl]
      simp only [Bool.false_eq_true, if_false]
      rw [file_of_entry, hf]
      simp only
      rw [eB, hx]
      simp only [if_true]
      rw [Res.thenOk b2]
      show Except.ok _ = Except.ok _
      rw [entry_toImage E s d _ _ _ hok.json, hx]
      simp only [Bool.true_or, if_true]
      rw [← hj]
    · show s.bits.map _ = some _
      rw [hb]
      show some _ = some _
      rw [hz, C43_lzw_roundtrip _ _ E.fromLzw_toLzw]

end Vpin
