import Verif.Spec.Webp
import Verif.Props.FileTable
import Verif.Props.Image
import Verif.Props.ExpandedFiles
/-!
Facts about converting one image to WebP.
-/
namespace Vpin
variable {P : PictureLib} {L : PictureLaws P}

theorem lastDotPart_split {path : Str} (h : '.' ∈ path) : ∃ stem, path = stem ++ '.' :: lastDotPart path := by
  have hd : ∀ l : Str, '.' ∈ l → ∃ t, l = l.takeWhile (· ≠ '.') ++ '.' :: t := by
    intro l
    induction l with
    | nil => intro h; cases h
    | cons c l ih =>
      intro h
      by_cases hc : c = '.'
      · subst hc; exact ⟨l, by simp⟩
      · obtain ⟨t, ht⟩ := ih (by
          rcases List.mem_cons.1 h with h | h
          · exact absurd h.symm hc
          · exact h)
        refine ⟨t, ?_⟩
        rw [List.takeWhile_cons_of_pos (by simpa using hc), List.cons_append, ← ht]
  obtain ⟨t, ht⟩ := hd path.reverse (by simpa using h)
  refine ⟨t.reverse, ?_⟩
  have := congrArg List.reverse ht
  rw [List.reverse_reverse, List.reverse_append, List.reverse_cons] at this
  unfold lastDotPart
  rw [← List.singleton_append, ← List.append_assoc]
  exact this

theorem lastDotPart_append {stem ext : Str} (h : '.' ∉ ext) : lastDotPart (stem ++ '.' :: ext) = ext := by
  unfold lastDotPart
  rw [List.reverse_append, List.reverse_cons, List.append_assoc,
    List.takeWhile_append_of_pos (by
      intro a ha
      have : a ≠ '.' := by rintro rfl; exact h (by simpa using ha)
      simpa using this)]
  simp

theorem asciiLower_alnum {c d : Char} (h : asciiLower c = d) (hd : d.isAlphanum = true) : c.isAlphanum = true := by
  unfold asciiLower at h
  split at h
  · next hc =>
    have : c.isUpper = true := by
      unfold Char.isUpper
      simp only [Bool.and_eq_true, decide_eq_true_eq]
      exact hc
    simp [Char.isAlphanum, Char.isAlpha, this]
  · rw [h]; exact hd

theorem ext_alnum {a b : Str} (h : eqIgnoreAsciiCase a b = true) (hb : (b.map asciiLower).all Char.isAlphanum = true) :
    a.all Char.isAlphanum = true := by
  have he : a.map asciiLower = b.map asciiLower := by simpa [eqIgnoreAsciiCase] using h
  rw [List.all_eq_true]
  intro c hc
  refine asciiLower_alnum rfl (List.all_eq_true.1 hb _ ?_)
  rw [← he]
  exact List.mem_map_of_mem hc

theorem changePathExt_of {path stem ext : Str} (new : Str) (h : path = stem ++ '.' :: ext) (hd : '.' ∉ ext)
    (he : ext ≠ []) (ha : ext.all Char.isAlphanum = true) : changePathExt new path = stem ++ '.' :: new := by
  have hl : lastDotPart path = ext := by rw [h]; exact lastDotPart_append hd
  unfold changePathExt
  rw [hl]
  dsimp only
  rw [if_pos ⟨by rw [h]; simp; omega, he, ha⟩, h]
  rw [show (stem ++ '.' :: ext).length - ext.length = (stem ++ ['.']).length by simp; omega,
    show stem ++ '.' :: ext = (stem ++ ['.']) ++ ext by simp, List.take_left' rfl]
  simp

theorem webp_path {im : ImageData} {e : String} (h : HasExt im e) (hdot : '.' ∈ im.path)
    (hn : e.toList ≠ []) (hb : (e.toList.map asciiLower).all Char.isAlphanum = true) :
    ∃ stem ext, im.path = stem ++ '.' :: ext ∧ '.' ∉ ext ∧
      changePathExt "webp".toList im.path = stem ++ ".webp".toList := by
  obtain ⟨stem, hs⟩ := lastDotPart_split hdot
  refine ⟨stem, _, hs, lastDotPart_no_dot _, ?_⟩
  refine changePathExt_of _ hs (lastDotPart_no_dot _) ?_ (ext_alnum h hb)
  intro h0
  have : eqIgnoreAsciiCase (lastDotPart im.path) e.toList = true := h
  rw [h0] at this
  unfold eqIgnoreAsciiCase at this
  rw [beq_iff_eq] at this
  exact hn (List.map_eq_nil_iff.1 this.symm)

theorem png_not_bmp {im : ImageData} (h : HasExt im "png") : ¬ HasExt im "bmp" := by
  intro h'
  unfold HasExt eqIgnoreAsciiCase at h h'
  rw [beq_iff_eq] at h h'
  rw [h] at h'
  exact absurd h' (by decide)

theorem webp_ext {stem : Str} {e : Str} (h : eqIgnoreAsciiCase "webp".toList e = false) {im : ImageData}
    (hp : im.path = stem ++ ".webp".toList) : eqIgnoreAsciiCase im.ext e = false := by
  unfold ImageData.ext
  rw [hp, show stem ++ ".webp".toList = stem ++ '.' :: "webp".toList from rfl, lastDotPart_append (by decide)]
  exact h

/-- after swapping, opaque data is opaque -/
theorem swap_opaque : ∀ (px : Bytes), anyTransparent px = false → ∀ i, 4 * i + 3 < (swapRedAndBlue px).length →
    (swapRedAndBlue px)[4 * i + 3]? = some 255
  | a :: b :: c :: d :: rest, ht, i, hi => by
    unfold anyTransparent at ht
    rw [Bool.or_eq_false_iff] at ht
    unfold swapRedAndBlue at hi ⊢
    cases i with
    | zero =>
      have : d = 255 := by simpa using ht.1
      rw [this]; rfl
    | succ i =>
      have := swap_opaque rest ht.2 i (by simp only [List.length_cons] at hi; omega)
      rw [show 4 * (i + 1) + 3 = (4 * i + 3) + 1 + 1 + 1 + 1 by omega]
      simpa using this
  | [], _, i, hi => by simp [swapRedAndBlue] at hi
  | [_], _, i, hi => by simp [swapRedAndBlue] at hi
  | [_, _], _, i, hi => by simp [swapRedAndBlue] at hi
  | [_, _, _], _, i, hi => by simp [swapRedAndBlue] at hi

/-- the picture made from a raw bitmap shows the bitmap -/
theorem bitsPicture_raster (L : PictureLaws P) {bits : Bytes} {w h : UInt32} {d : P.Picture}
    (hd : bitsPicture P bits w h = .ok d) : bitmapRaster P bits w h = some (L.raster d) := by
  unfold bitsPicture at hd
  obtain ⟨bgra, hb, hd⟩ := Res.unbind hd
  unfold bitmapRaster
  rw [hb]
  dsimp only at hd ⊢
  split at hd
  · cases hd
  · next hl =>
    rw [if_neg hl]
    have hr := L.ofRgba w h _ (Nat.le_of_not_lt hl)
    cases hd
    split
    · rw [hr]
    · next ht =>
      rw [L.dropAlpha, hr]
      rw [hr]
      dsimp only
      intro i hi
      rw [List.getElem?_take_of_lt (by omega)]
      exact swap_opaque bgra (by simpa using ht) i (by omega)

theorem bitsPicture_ok {bits : Bytes} {w h : UInt32} (hs : (bitmapRaster P bits w h).isSome) :
    ∃ rgba, bitsPicture P bits w h = .ok (P.ofRgba w h rgba) ∨ bitsPicture P bits w h = .ok (P.dropAlpha (P.ofRgba w h rgba)) := by
  unfold bitmapRaster at hs
  split at hs
  · cases hs
  · next bgra hb =>
    split at hs
    · cases hs
    · next hl =>
      refine ⟨swapRedAndBlue bgra, ?_⟩
      unfold bitsPicture
      rw [Res.thenOk hb]
      dsimp only
      rw [if_neg hl]
      cases anyTransparent bgra
      · exact .inr rfl
      · exact .inl rfl

/-- what converting an image gives -/
theorem convert_spec (L : PictureLaws P) {im : ImageData} {new : Option ImageData} {rep : Option Conversion}
    (h : convertImage P im = .ok (new, rep)) (hr : ReadyForWebp P im) :
    (Convertible P im → ∃ n, new = some n ∧ WebpOf P L im n ∧
      n.path = changePathExt "webp".toList im.path ∧
      ∃ j, n.jpeg = some j ∧ RecordData j.data ∧
        ((∃ k, im.jpeg = some k ∧ j = { k with path := changePathExt "webp".toList k.path, data := j.data }) ∨
          j = ⟨n.path, im.name, none, j.data⟩)) ∧
    (¬ Convertible P im → new = none) ∧ ∀ cv, rep = some cv ↔ Reported P im cv := by
  unfold convertImage at h
  split at h
  · next hp =>
    have hp' : HasExt im "png" := hp
    have nb := png_not_bmp hp'
    dsimp only [ImageData.changeExt] at h
    cases hj : im.jpeg with
    | none =>
      rw [hj] at h
      simp only [Option.map_none] at h
      cases h
      refine ⟨fun hc => ?_, fun _ => rfl, fun cv => ⟨nofun, fun hc => ?_⟩⟩
      · cases hc with
        | png j d _ h2 _ => rw [hj] at h2; cases h2
        | bmp _ h1 _ => exact absurd h1 nb
      · cases hc with
        | png j d _ h2 _ => rw [hj] at h2; cases h2
        | bmp h1 => exact absurd h1 nb
    | some j =>
      rw [hj] at h
      simp only [Option.map_some] at h
      cases hd : P.ofPng j.data with
      | none =>
        rw [hd] at h
        cases h
        refine ⟨fun hc => ?_, fun _ => rfl, fun cv => ⟨nofun, fun hc => ?_⟩⟩
        · cases hc with
          | png j' d _ h2 h3 => rw [hj] at h2; cases h2; rw [hd] at h3; cases h3
          | bmp _ h1 _ => exact absurd h1 nb
        · cases hc with
          | png j' d _ h2 h3 => rw [hj] at h2; cases h2; rw [hd] at h3; cases h3
          | bmp h1 => exact absurd h1 nb
      | some d =>
        rw [hd] at h
        dsimp only at h
        have hconv : Convertible P im := .png j d hp' hj hd
        cases hw : P.toWebp d with
        | none => rw [hw] at h; cases h
        | some webp =>
          rw [hw] at h
          cases h
          have hbits : im.bits = none := hr.one.resolve_right (by rw [hj]; nofun)
          obtain ⟨stem, ext, e1, e2, e3⟩ := webp_path hp' (hr.dot hconv) (by decide) (by decide)
          obtain ⟨q, q1, q2⟩ := L.lossless d webp hw
          refine ⟨fun _ => ⟨_, rfl, ⟨?_, ⟨stem, ext, e1, e2, e3⟩, ?_⟩, rfl, ?_⟩, fun hn => absurd hconv hn, fun cv => ?_⟩
          · dsimp only
            rw [hbits]
          · refine ⟨_, q, L.raster d, rfl, q1, q2, .png j d hp' hj hd rfl, ?_, fun hb => absurd hb nb⟩
            intro k hk _
            rw [hj] at hk
            cases hk
            exact ⟨rfl, rfl⟩
          · exact ⟨_, rfl, L.size d webp hw, .inl ⟨j, rfl, rfl⟩⟩
          · constructor
            · intro hc; cases hc; exact .png j d hp' hj hd
            · intro hc
              cases hc with
              | png => rfl
              | bmp h1 => exact absurd h1 nb
  · next hp =>
    have np : ¬ HasExt im "png" := hp
    split at h
    · next hb =>
      have hb' : HasExt im "bmp" := hb
      dsimp only [ImageData.changeExt] at h
      have hrep : ∀ cv, some (⟨im.name, "bmp".toList, "webp".toList⟩ : Conversion) = some cv ↔ Reported P im cv := by
        intro cv
        constructor
        · intro hc; cases hc; exact .bmp hb'
        · intro hc
          cases hc with
          | png _ _ h1 => exact absurd h1 np
          | bmp => rfl
      cases hbits : im.bits with
      | none =>
        rw [hbits] at h
        cases h
        refine ⟨fun hc => ?_, fun _ => rfl, hrep⟩
        cases hc with
        | png _ _ h1 => exact absurd h1 np
        | bmp b _ h2 => rw [hbits] at h2; cases h2
      | some bits =>
        rw [hbits] at h
        dsimp only at h
        obtain ⟨d, hd, h⟩ := Res.unbind h
        have hconv : Convertible P im := .bmp bits hb' hbits
        cases hw : P.toWebp d with
        | none => rw [hw] at h; cases h
        | some webp =>
          rw [hw] at h
          cases h
          obtain ⟨stem, ext, e1, e2, e3⟩ := webp_path hb' (hr.dot hconv) (by decide) (by decide)
          obtain ⟨q, q1, q2⟩ := L.lossless d webp hw
          refine ⟨fun _ => ⟨_, rfl, ⟨rfl, ⟨stem, ext, e1, e2, e3⟩, ?_⟩, rfl, ?_⟩, fun hn => absurd hconv hn, hrep⟩
          · exact ⟨_, q, L.raster d, rfl, q1, q2, .bmp bits hb' hbits (bitsPicture_raster L hd),
              fun k _ h1 => absurd h1 np, fun _ => ⟨rfl, rfl, rfl⟩⟩
          · exact ⟨_, rfl, L.size d webp hw, .inr rfl⟩
    · next hb =>
      have nb : ¬ HasExt im "bmp" := hb
      cases h
      refine ⟨fun hc => ?_, fun _ => rfl, fun cv => ⟨nofun, fun hc => ?_⟩⟩
      · cases hc with
        | png _ _ h1 => exact absurd h1 np
        | bmp _ h1 _ => exact absurd h1 nb
      · cases hc with
        | png _ _ h1 => exact absurd h1 np
        | bmp h1 => exact absurd h1 nb

/-- converting succeeds -/
theorem convert_ok {im : ImageData} (hc : CanBecomeWebp P im) : ∃ r, convertImage P im = .ok r := by
  unfold convertImage
  split
  · next hp =>
    dsimp only [ImageData.changeExt]
    cases hj : im.jpeg with
    | none => exact ⟨_, rfl⟩
    | some j =>
      simp only [Option.map_some]
      cases hd : P.ofPng j.data with
      | none => exact ⟨_, rfl⟩
      | some d =>
        obtain ⟨data, hw⟩ := hc.png j d hp hj hd
        dsimp only
        rw [hw]
        exact ⟨_, rfl⟩
  · split
    · next hb =>
      dsimp only [ImageData.changeExt]
      cases hbits : im.bits with
      | none => exact ⟨_, rfl⟩
      | some bits =>
        obtain ⟨h1, h2⟩ := hc.bmp bits hb hbits
        obtain ⟨rgba, hd⟩ := bitsPicture_ok h1
        dsimp only
        rcases hd with hd | hd
        · rw [Res.thenOk hd]
          obtain ⟨data, hw⟩ := Option.isSome_iff_exists.1 (h2 rgba).1
          rw [hw]
          exact ⟨_, rfl⟩
        · rw [Res.thenOk hd]
          obtain ⟨data, hw⟩ := Option.isSome_iff_exists.1 (h2 rgba).2
          rw [hw]
          exact ⟨_, rfl⟩
    · exact ⟨_, rfl⟩

theorem changePathExt_text {p : Str} (h : Text p) (hl : 11 + p.length < 2 ^ 32) :
    Text (changePathExt "webp".toList p) := by
  unfold changePathExt
  dsimp only
  split
  · next hc =>
    have he : 0 < (lastDotPart p).length := List.length_pos_iff.2 hc.2.1
    refine ⟨?_, ?_, ?_⟩
    · intro c hm
      rcases List.mem_append.1 hm with hm | hm
      · exact h.1 c (List.mem_of_mem_take hm)
      · exact (show Text "webp".toList by decide).1 c hm
    · intro c hm
      rcases List.mem_append.1 hm with hm | hm
      · exact h.2.1 c (List.mem_of_mem_take hm)
      · exact (show Text "webp".toList by decide).2.1 c hm
    · rw [List.length_append, List.length_take]
      simp only [show "webp".toList.length = 4 from rfl]
      omega
  · exact h

end Vpin
