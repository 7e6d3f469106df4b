import Verif.Model.Vpx
import Verif.Model.Pixels
import Verif.Model.ExpandedJson
import Verif.Model.Expanded
/-
/repo/src/vpx/mod.rs:1002-1087: converting the PNG and BMP images of a table file to WebP, in the file.
-/
namespace Vpin

/-- the libraries for pictures (crates `image` and `weezl`), as functions (used in /repo/src/vpx/mod.rs:1009-1087) -/
structure PictureLib where
  /-- `DynamicImage` -/
  Picture : Type
  /-- `load_from_memory_with_format(_, ImageFormat::Png)` -/
  ofPng : Bytes → Option Picture
  /-- reading a WebP file; not called by the code, used to say what was written -/
  ofWebp : Bytes → Option Picture
  /-- `DynamicImage::write_to(_, ImageFormat::WebP)` -/
  toWebp : Picture → Option Bytes
  /-- `DynamicImage::ImageRgba8(RgbaImage::from_raw(..))`, given enough bytes -/
  ofRgba : UInt32 → UInt32 → Bytes → Picture
  /-- `DynamicImage::ImageRgb8(_.to_rgb8())` -/
  dropAlpha : Picture → Picture
  /-- the LZW decoder -/
  fromLzw : Bytes → Res Bytes

/-- `vpx_image_to_dynamic_image`, /repo/src/vpx/image.rs:529-548. `from_raw` gives `None`, and `expect` panics, if there
are too few bytes for the size; more are no problem. -/
def bitsPicture (P : PictureLib) (bits : Bytes) (width height : UInt32) : Res P.Picture := do
  let bgra ← fromLzwBlocks P.fromLzw bits
  let rgba := swapRedAndBlue bgra
  if rgba.length < 4 * (width.toNat * height.toNat) then .error .panic
  else
    let d := P.ofRgba width height rgba
    pure (if anyTransparent bgra then d else P.dropAlpha d)

/-- `ImageToWebpConversion`, /repo/src/vpx/mod.rs:1002-1007 -/
structure Conversion where
  name : Str
  old_extension : Str
  new_extension : Str
  deriving DecidableEq, Repr

/-- what happens to an image: what is written in its place, if anything, and what is reported (used in
/repo/src/vpx/mod.rs:1009-1087) -/
abbrev Converted := Option ImageData × Option Conversion

/-- the body of the loop of `images_to_webp`, /repo/src/vpx/mod.rs:1015-1084, between reading and writing. The extension is
compared after `to_lowercase`; no characters but the letters themselves have one of p, n, g, b, m as their lower case. -/
def convertImage (P : PictureLib) (im : ImageData) : Res Converted :=
  if eqIgnoreAsciiCase im.ext "png".toList then
    let im := im.changeExt "webp".toList
    match im.jpeg with
    | none => .ok (none, none)
    | some jpeg =>
      match P.ofPng jpeg.data with
      | none => .ok (none, none)
      | some d =>
        match P.toWebp d with
        | none => .error .io
        | some webp =>
          .ok (some { im with jpeg := some { jpeg with data := webp } }, some ⟨im.name, "png".toList, "webp".toList⟩)
  else if eqIgnoreAsciiCase im.ext "bmp".toList then
    let im := im.changeExt "webp".toList
    match im.bits with
    | none => .ok (none, some ⟨im.name, "bmp".toList, "webp".toList⟩)
    | some bits => do
      let d ← bitsPicture P bits im.width im.height
      match P.toWebp d with
      | none => .error .io
      | some webp =>
        .ok (some { im with bits := none, jpeg := some ⟨im.path, im.name, none, webp⟩ },
          some ⟨im.name, "bmp".toList, "webp".toList⟩)
  else .ok (none, none)

/-- `write_image` with `overwrite`, /repo/src/vpx/mod.rs:983-1000 -/
def overwriteImage (E : Env) (i : Nat) (im : ImageData) (c : Cfb) : Res Cfb := do
  let data ← im.write
  c.createStream E.toCfbLib (itemPath "Image".toList i) data

/-- the call of `write_image` in the arms of the loop, /repo/src/vpx/mod.rs:1040, 1075, if it is reached -/
def replaceImage (E : Env) (i : Nat) (new : Option ImageData) (c : Cfb) : Res Cfb :=
  match new with
  | none => .ok c
  | some im => overwriteImage E i im c

/-- the loop of `images_to_webp`, /repo/src/vpx/mod.rs:1009-1087, over `index .. index + n`, with the file as it is when
the call returns or panics -/
def webpFrom (E : Env) (P : PictureLib) : Nat → Nat → Cfb → Res (List Conversion) × Cfb
  | _, 0, c => (.ok [], c)
  | i, n + 1, c =>
    match (do ImageData.read (← c.openStream E.toCfbLib (itemPath "Image".toList i)) : Res ImageData) with
    | .error e => (.error e, c)
    | .ok im =>
      match convertImage P im with
      | .error e => (.error e, c)
      | .ok (new, report) =>
        match replaceImage E i new c with
        | .error e => (.error e, c)
        | .ok c =>
          let r := webpFrom E P (i + 1) n c
          (r.1.map (report.toList ++ ·), r.2)

/-- `VpxFile::images_to_webp`, /repo/src/vpx/mod.rs:307-313 -/
def imagesToWebp (E : Env) (P : PictureLib) (c : Cfb) : Res (List Conversion) × Cfb :=
  match fileGameData E c with
  | .error e => (.error e, c)
  | .ok g => webpFrom E P 0 g.images_size.toNat c

end Vpin
