import Verif.Model.Webp
import Verif.Spec.FileOps
import Verif.Spec.Image
/-
What converting images to WebP means.
-/
namespace Vpin

/-- width, height, and four bytes (red, green, blue, alpha) for every pixel -/
abbrev Raster := UInt32 × UInt32 × Bytes

/-- What is assumed of the libraries for pictures. `raster` is what a picture shows, in eight bits for each channel. -/
structure PictureLaws (P : PictureLib) where
  raster : P.Picture → Raster
  /-- more bytes than the size asks for are not shown -/
  ofRgba : ∀ w h data, 4 * (w.toNat * h.toNat) ≤ data.length →
    raster (P.ofRgba w h data) = (w, h, data.take (4 * (w.toNat * h.toNat)))
  /-- a picture without alpha channel shows what it showed before, if it was opaque -/
  dropAlpha : ∀ p, (∀ i < (raster p).1.toNat * (raster p).2.1.toNat, (raster p).2.2[4 * i + 3]? = some 255) →
    raster (P.dropAlpha p) = raster p
  /-- WebP files are written without loss -/
  lossless : ∀ p data, P.toWebp p = some data → ∃ q, P.ofWebp data = some q ∧ raster q = raster p
  /-- and have a length of at most 32 bits -/
  size : ∀ p data, P.toWebp p = some data → RecordData data

/-- the extension of the path of an image is `ext`, in any mix of cases -/
def HasExt (im : ImageData) (ext : String) : Prop := eqIgnoreAsciiCase im.ext ext.toList = true

/-- **What a raw bitmap shows**: blue, green, red, alpha for each pixel after decompression -/
def bitmapRaster (P : PictureLib) (bits : Bytes) (w h : UInt32) : Option Raster :=
  match fromLzwBlocks P.fromLzw bits with
  | .error _ => none
  | .ok bgra =>
    if (swapRedAndBlue bgra).length < 4 * (w.toNat * h.toNat) then none
    else some (w, h, (swapRedAndBlue bgra).take (4 * (w.toNat * h.toNat)))

/-- an image in one of the two formats, with the data to convert -/
inductive Convertible (P : PictureLib) (im : ImageData) : Prop
  /-- the extension is PNG and the embedded file is a PNG file -/
  | png (j : ImageDataJpeg) (d : P.Picture) : HasExt im "png" → im.jpeg = some j → P.ofPng j.data = some d →
      Convertible P im
  /-- the extension is BMP and there is a raw bitmap -/
  | bmp (bits : Bytes) : HasExt im "bmp" → im.bits = some bits → Convertible P im

/-- what a convertible image shows -/
inductive ShowsRaster (P : PictureLib) (L : PictureLaws P) (im : ImageData) (r : Raster) : Prop
  | png (j : ImageDataJpeg) (d : P.Picture) : HasExt im "png" → im.jpeg = some j → P.ofPng j.data = some d →
      L.raster d = r → ShowsRaster P L im r
  | bmp (bits : Bytes) : HasExt im "bmp" → im.bits = some bits → bitmapRaster P bits im.width im.height = some r →
      ShowsRaster P L im r

/-- **Specification**: `new` is `old` as a WebP image -/
structure WebpOf (P : PictureLib) (L : PictureLaws P) (old new : ImageData) : Prop where
  /-- it differs in path and data only -/
  rest : new = { old with path := new.path, jpeg := new.jpeg, bits := none }
  /-- the extension in the path is replaced -/
  path : ∃ stem ext, old.path = stem ++ '.' :: ext ∧ '.' ∉ ext ∧ new.path = stem ++ ".webp".toList
  /-- there is an embedded WebP file that shows the same; it keeps its names, or gets those of the image -/
  file : ∃ j q r, new.jpeg = some j ∧ P.ofWebp j.data = some q ∧ L.raster q = r ∧ ShowsRaster P L old r ∧
    (∀ k, old.jpeg = some k → HasExt old "png" → j.name = k.name ∧ j.internal_name = k.internal_name) ∧
    (HasExt old "bmp" → j.name = old.name ∧ j.internal_name = none ∧ j.path = new.path)

/-- **Specification**: what becomes of an image -/
def WebpStep (P : PictureLib) (L : PictureLaws P) (old new : ImageData) : Prop :=
  (Convertible P old → WebpOf P L old new) ∧ (¬ Convertible P old → new = old)

/-- **Specification**: the images after a number of them have been taken care of -/
def WebpUpTo (P : PictureLib) (L : PictureLaws P) (k : Nat) (old new : List ImageData) : Prop :=
  new.length = old.length ∧ ∀ i o n, old[i]? = some o → new[i]? = some n →
    (i < k → WebpStep P L o n) ∧ (k ≤ i → n = o)

/-- what must hold of the images of a table for the conversion to keep everything: none has both a bitmap and a file,
convertible ones have a dot in their path, and a longer path fits in a record -/
structure ReadyForWebp (P : PictureLib) (im : ImageData) : Prop where
  one : im.bits = none ∨ im.jpeg = none
  dot : Convertible P im → '.' ∈ im.path
  path : 11 + im.path.length < 2 ^ 32
  jpeg : ∀ j, im.jpeg = some j → 11 + j.path.length < 2 ^ 32

/-- the images the conversion is able to convert: bitmaps decompress to enough data, pictures can be encoded -/
structure CanBecomeWebp (P : PictureLib) (im : ImageData) : Prop where
  png : ∀ j d, HasExt im "png" → im.jpeg = some j → P.ofPng j.data = some d → ∃ data, P.toWebp d = some data
  bmp : ∀ bits, HasExt im "bmp" → im.bits = some bits → (bitmapRaster P bits im.width im.height).isSome ∧
    ∀ rgba, (P.toWebp (P.ofRgba im.width im.height rgba)).isSome ∧
      (P.toWebp (P.dropAlpha (P.ofRgba im.width im.height rgba))).isSome

/-- what is reported of an image -/
inductive Reported (P : PictureLib) (im : ImageData) : Conversion → Prop
  | png (j : ImageDataJpeg) (d : P.Picture) : HasExt im "png" → im.jpeg = some j → P.ofPng j.data = some d →
      Reported P im ⟨im.name, "png".toList, "webp".toList⟩
  | bmp : HasExt im "bmp" → Reported P im ⟨im.name, "bmp".toList, "webp".toList⟩

end Vpin
