import Verif.Model.Common
/-
/repo/src/vpx/image.rs: the image records of a table file.
-/
namespace Vpin

/-- `ImageDataJpeg`: an embedded image file, /repo/src/vpx/image.rs:9-20 -/
structure ImageDataJpeg where
  path : Str
  name : Str
  internal_name : Option Str
  data : Bytes
  deriving DecidableEq, Repr

/-- `ImageData`, /repo/src/vpx/image.rs:53-145; `bits` is the compressed data of `ImageDataBits`,
/repo/src/vpx/image.rs:38-42. `md5_hash` is a list here; its length 16 is a condition. -/
structure ImageData where
  name : Str
  internal_name : Option Str
  path : Str
  width : UInt32
  height : UInt32
  link : Option UInt32
  alpha_test_value : F32
  is_opaque : Option Bool
  is_signed : Option Bool
  jpeg : Option ImageDataJpeg
  bits : Option Bytes
  md5_hash : Option Bytes
  deriving DecidableEq, Repr

/-- `ImageData::default`, /repo/src/vpx/image.rs:333-350 -/
def ImageData.default : ImageData where
  name := []
  internal_name := none
  path := []
  width := 0
  height := 0
  link := none
  alpha_test_value := 0
  is_opaque := none
  is_signed := none
  jpeg := none
  bits := none
  md5_hash := none

/-- the local variables of `read_jpeg`, /repo/src/vpx/image.rs:465-472 -/
structure JpegState where
  jpeg : ImageDataJpeg
  size : Option UInt32
  deriving DecidableEq, Repr

/-- the state before the first record, /repo/src/vpx/image.rs:10-20 -/
def JpegState.init : JpegState := ⟨⟨[], [], none, []⟩, none⟩

/-- match arms of `read_jpeg`, /repo/src/vpx/image.rs:464-513; DATA before SIZE is a panic -/
def ImageDataJpeg.arms : Handlers JpegState :=
  [(tag!"SIZE", fld getU32 fun v s => { s with size := some v }),
   (tag!"DATA", fun s =>
      fld (match s.size with
        | some n => getData n.toNat
        | none => R.ofRes (.error .panic)) (fun v s => { s with jpeg := { s.jpeg with data := v } }) s),
   (tag!"NAME", fld getString fun v s => { s with jpeg := { s.jpeg with name := v } }),
   (tag!"PATH", fld getString fun v s => { s with jpeg := { s.jpeg with path := v } }),
   (tag!"INME", fld getString fun v s => { s with jpeg := { s.jpeg with internal_name := some v } })]

/-- calls made by `write_jpg` before `close(true)`, /repo/src/vpx/image.rs:515-527;
`len().try_into().unwrap()` panics from 2^32 on -/
def ImageDataJpeg.ops (s : ImageDataJpeg) : List WOp := List.flatten [
  [wString tag!"NAME" s.name],
  opt (wString tag!"INME") s.internal_name,
  [wString tag!"PATH" s.path],
  [if s.data.length < 2 ^ 32 then wU32 tag!"SIZE" (UInt32.ofNat s.data.length) else .fail],
  [wData tag!"DATA" s.data]]

/-- `write_jpg`, /repo/src/vpx/image.rs:515-527 -/
def ImageDataJpeg.write (s : ImageDataJpeg) : Res Bytes := writeBiff s.ops

/-- "ALTV", /repo/src/vpx/image.rs:387 -/
def altvBytes : Bytes := [0x41, 0x4c, 0x54, 0x56]

/-- match arms of `read`, /repo/src/vpx/image.rs:352-428 -/
def ImageData.arms : Handlers ImageData :=
  [(tag!"NAME", fld getString fun v s => { s with name := v }),
   (tag!"PATH", fld getString fun v s => { s with path := v }),
   (tag!"INME", fld getString fun v s => { s with internal_name := some v }),
   (tag!"WDTH", fld getU32 fun v s => { s with width := v }),
   (tag!"HGHT", fld getU32 fun v s => { s with height := v }),
   (tag!"ALTV", fld getF32 fun v s => { s with alpha_test_value := v }),
   (tag!"OPAQ", fld getBool fun v s => { s with is_opaque := some v }),
   (tag!"SIGN", fld getBool fun v s => { s with is_signed := some v }),
   (tag!"BITS", fld (dataUntil altvBytes) fun v s => { s with bits := some v }),
   (tag!"JPEG", fld (getChild (readWith ImageDataJpeg.arms JpegState.init))
      fun v s => { s with jpeg := some v.jpeg }),
   (tag!"LINK", fld getU32 fun v s => { s with link := some v }),
   (tag!"MD5H", fld (getData 16) fun v s => { s with md5_hash := some v })]

/-- `ImageData::biff_read`, /repo/src/vpx/image.rs:327-331, 352-428 -/
def ImageData.read (data : Bytes) : Res ImageData :=
  readStruct ImageData.arms ImageData.default data

/-- the JPEG record, /repo/src/vpx/image.rs:444-447 -/
def jpegOp (j : ImageDataJpeg) : WOp := .unsizedR tag!"JPEG" j.write

/-- calls made by `write` before `close(true)`, /repo/src/vpx/image.rs:430-462, up to the image data -/
def ImageData.opsHead (s : ImageData) : List WOp := List.flatten [
  [wString tag!"NAME" s.name],
  opt (wString tag!"INME") s.internal_name,
  [wString tag!"PATH" s.path],
  [wU32 tag!"WDTH" s.width],
  [wU32 tag!"HGHT" s.height],
  opt (wU32 tag!"LINK") s.link]

/-- calls made by `write`, /repo/src/vpx/image.rs:430-462, behind the image data -/
def ImageData.opsTail (s : ImageData) : List WOp := List.flatten [
  [wF32 tag!"ALTV" s.alpha_test_value],
  opt (wData tag!"MD5H") s.md5_hash,
  opt (wBool tag!"OPAQ") s.is_opaque,
  opt (wBool tag!"SIGN") s.is_signed]

/-- calls made by `write` before `close(true)`, /repo/src/vpx/image.rs:430-462 -/
def ImageData.ops (s : ImageData) : List WOp :=
  s.opsHead ++ (opt (wDataNoSize tag!"BITS") s.bits ++ (opt jpegOp s.jpeg ++ s.opsTail))

/-- `ImageData::biff_write`, /repo/src/vpx/image.rs:321-325 -/
def ImageData.write (s : ImageData) : Res Bytes := writeBiff s.ops

end Vpin
