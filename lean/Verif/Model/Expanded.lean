import Verif.Model.ExpandedJson
import Verif.Model.FileNames
import Verif.Model.GameItemJson
import Verif.Model.Gltf
import Verif.Model.MemFs
import Verif.Model.Obj
import Verif.Model.Pixels
import Verif.Model.TableJson
import Verif.Model.Vpx
/-
/repo/src/vpx/expanded: a table as a directory of files, and back.

Paths are strings and a directory is a map from paths to contents, as in `MemoryFileSystem`; directories need not
be created. Writing a file never fails. The directory of a table is given by a path that is not empty and does not
end in `/`. `expand` is for the option `generate_derived_meshes` off; for the option on see `Model/Derived`.
-/
namespace Vpin

/-- the image library writing and reading BMP files. Pixels are RGBA; an image without alpha is given with alpha
255. Assumed: sizes that fit are read back. (used in /repo/src/vpx/expanded/images.rs:158) -/
structure BmpCodec where
  encode : Bool → UInt32 → UInt32 → Bytes → Res Bytes
  decode : Bytes → Res (UInt32 × UInt32 × Bytes)
  fits : UInt32 → UInt32 → Prop
  decode_encode : ∀ alpha w h px, fits w h → px.length = 4 * (w.toNat * h.toNat) →
    (alpha = false → ∀ i < w.toNat * h.toNat, px[4 * i + 3]? = some 255) →
    ∃ bs, encode alpha w h px = .ok bs ∧ decode bs = .ok (w, h, px)

/-- the library writing and reading the lines of OBJ files. Assumed: what was written is read back, but for the
name of the object, if that name can be put on a line. (used in /repo/src/vpx/obj.rs:100-185) -/
structure ObjText (T : FloatText) where
  print : List ObjLine → Bytes
  parse : Bytes → Res (List ObjLine)
  nameOk : Str → Prop
  parse_print : ∀ name m, nameOk name → ∃ name', parse (print (writeObj T name m)) = .ok (writeObj T name' m)

/-- the libraries used (used in /repo/src/vpx/expanded/mod.rs:171-245) -/
structure ExpandEnv where
  J : JsonText
  U : Unicode
  /-- `sanitize_filename::sanitize` -/
  sanitize : Str → Str
  /-- it gives the name of a file, not a path -/
  sanitize_plain : ∀ s, '/' ∉ sanitize s
  /-- `Path::extension` -/
  ext : Str → Option Str
  /-- the size of an image file, by its name and its content, /repo/src/vpx/expanded/images.rs:345-384 -/
  dims : Str → Bytes → Option (UInt32 × UInt32)
  toLzw : Bytes → Bytes
  fromLzw : Bytes → Res Bytes
  fromLzw_toLzw : ∀ d, fromLzw (toLzw d) = .ok d
  bmp : BmpCodec
  Z : Zlib
  T : FloatText
  obj : ObjText T

/-! ### Files -/

/-- What the writing code does with the file system; the decisions it takes depend on the file system only by the
checks that a file does not exist. /repo/src/filesystem.rs:7-33. -/
inductive FsStep where
  /-- create a file, or replace it -/
  | write (path : Str) (content : Bytes)
  /-- end with an error if the file exists -/
  | absent (path : Str)
  /-- end with an error -/
  | fail (e : Err)
  deriving Repr

/-- running the steps: how it ends, and the files then, /repo/src/filesystem.rs:7-33 -/
def runSteps : List FsStep → Files → Res Unit × Files
  | [], fs => (.ok (), fs)
  | .write p bs :: rest, fs => runSteps rest (fs.insert p bs)
  | .absent p :: rest, fs => if (fs.get p).isSome then (.error .io, fs) else runSteps rest fs
  | .fail e :: _, fs => (.error e, fs)

/-- a file in the directory (used in /repo/src/vpx/expanded/metadata.rs:54-66) -/
def jsonStep {α : Type} (E : ExpandEnv) (root : Str) (file : String) (c : Codec α) (a : α) : FsStep :=
  .write (joinPath root file.toList) (writeJson E.J c a)

/-- `fs.exists(..)` and then `read_json(..)` (used in /repo/src/vpx/expanded/materials.rs:27-42) -/
def readOptional {α : Type} (E : ExpandEnv) (root : Str) (fs : Files) (file : String) (c : Codec α) : Res (Option α) :=
  match fs.get (joinPath root file.toList) with
  | none => .ok none
  | some bs =>
    match readJson E.J c bs with
    | .ok a => .ok (some a)
    | .error e => .error e

/-- `read_json`, /repo/src/vpx/expanded/util.rs:18-39 -/
def readRequired {α : Type} (E : ExpandEnv) (path : Str) (fs : Files) (c : Codec α) : Res α := do
  let bs ← orIo (fs.get path)
  readJson E.J c bs

/-! ### Names of images and sounds -/

/-- the names given to files, /repo/src/vpx/expanded/images.rs:49-69 and /repo/src/vpx/expanded/sounds.rs:27-45:
`some` if the file is not named by the name itself. `used` are the names so far in lower case, `k` the counter. -/
def dedupNames (E : ExpandEnv) : List Str → Nat → List Str → List (Option Str)
  | _, _, [] => []
  | used, k, name :: names =>
    let s := E.sanitize name
    if used.contains (E.U.lower s) then
      some (name ++ "_dedup".toList ++ decimal (k + 1)) :: dedupNames E (E.U.lower s :: used) (k + 1) names
    else (if s = name then none else some s) :: dedupNames E (E.U.lower s :: used) k names

/-- the name of a file: `format!("{}.{}", name, ext)` (used in /repo/src/vpx/expanded/images.rs:57) -/
def fileName (name ext : Str) : Str := name ++ ['.'] ++ ext

/-! ### Images -/

/-- the file of an image, /repo/src/vpx/expanded/images.rs:71-72 -/
def ImageData.file (s : ImageData) (dedup : Option Str) : Str := fileName (dedup.getD s.name) s.ext

/-- the index entry of an image, /repo/src/vpx/expanded/images.rs:48-107: the size is kept only if the file does not
tell it -/
def ImageData.entry (E : ExpandEnv) (s : ImageData) (dedup : Option Str) : ImageDataJson :=
  let j := { ImageDataJson.ofImage s with name_dedup := dedup }
  let j :=
    match s.jpeg with
    | none => j
    | some jpeg =>
      match E.dims (s.file dedup) jpeg.data with
      | some (w, h) =>
        { j with
          width := if s.width = w then none else some s.width
          height := if s.height = h then none else some s.height }
      | none => { j with width := some s.width, height := some s.height }
  if s.link.isSome then { j with width := some s.width, height := some s.height } else j

/-- has a pixel with an alpha value other than 255, /repo/src/vpx/image.rs:594-603 -/
def anyTransparent : Bytes → Bool
  | _ :: _ :: _ :: a :: rest => a != 255 || anyTransparent rest
  | _ => false

/-- `vpx_image_to_dynamic_image`, /repo/src/vpx/image.rs:529-548, and `write_image_bmp`,
/repo/src/vpx/expanded/images.rs:204-236. More data than the size tells is ignored. -/
def bmpFile (E : ExpandEnv) (bits : Bytes) (w h : UInt32) : Res Bytes := do
  let bgra ← fromLzwBlocks E.fromLzw bits
  let rgba := swapRedAndBlue bgra
  ensure (decide (4 * (w.toNat * h.toNat) ≤ rgba.length)) .panic
  E.bmp.encode (anyTransparent bgra) w h (rgba.take (4 * (w.toNat * h.toNat)))

/-- the data of an image, /repo/src/vpx/expanded/images.rs:140-183 -/
def ImageData.dataSteps (E : ExpandEnv) (path : Str) (s : ImageData) : List FsStep :=
  if s.isLink then []
  else
    match s.jpeg, s.bits with
    | some jpeg, _ => [.write path jpeg.data]
    | none, some bits =>
      if eqIgnoreAsciiCase s.ext "bmp".toList then
        match bmpFile E bits s.width s.height with
        | .ok bs => [.write path bs]
        | .error e => [.fail e]
      else [.fail .panic]
    | none, none => [.fail .io]

/-- `write_images`, /repo/src/vpx/expanded/images.rs:21-202 -/
def writeImages (E : ExpandEnv) (root : Str) (images : List ImageData) : List FsStep :=
  let named := images.zip (dedupNames E [] 0 (images.map (·.name)))
  jsonStep E root "images.json" (jVec jImage) (named.map fun (s, d) => s.entry E d) ::
    named.flatMap fun (s, d) =>
      let path := joinPath (joinPath root "images".toList) (s.file d)
      .absent path :: s.dataSteps E path

/-- `read_image_bmp`, /repo/src/vpx/expanded/images.rs:386-416 -/
def readBmp (E : ExpandEnv) (data : Bytes) : Res (UInt32 × UInt32 × Bytes) := do
  let (w, h, rgba) ← E.bmp.decode data
  pure (w, h, toLzwBlocks E.toLzw (swapRedAndBlue rgba))

/-- the path with another extension: `re.replace(&path, ..)` with `\.[a-zA-Z0-9]+$`,
/repo/src/vpx/image.rs:159-160. (`$` is the end of the text.) -/
def changePathExt (ext path : Str) : Str :=
  let e := lastDotPart path
  if e.length < path.length ∧ e ≠ [] ∧ e.all Char.isAlphanum then path.take (path.length - e.length) ++ ext else path

/-- `ImageData::change_extension`, /repo/src/vpx/image.rs:158-170 -/
def ImageData.changeExt (ext : Str) (s : ImageData) : ImageData :=
  { s with
    path := changePathExt ext s.path
    jpeg := s.jpeg.map fun j => { j with path := changePathExt ext j.path } }

/-- an image file that is not a bitmap, /repo/src/vpx/expanded/images.rs:293-327 -/
def readJpeg (E : ExpandEnv) (j : ImageDataJson) (full : Str) (data : Bytes) : Res ImageData := do
  let d := E.dims full data
  let w ← orIo (j.width.or (d.map (·.1)))
  let h ← orIo (j.height.or (d.map (·.2)))
  let s := j.toImage w h none
  pure { s with jpeg := s.jpeg.map fun x => { x with data := data } }

/-- one image, /repo/src/vpx/expanded/images.rs:250-339 -/
def readImage (E : ExpandEnv) (dir : Str) (fs : Files) (j : ImageDataJson) : Res ImageData :=
  if j.isLink then .ok (j.toImage (j.width.getD 0) (j.height.getD 0) none)
  else
    let name := j.name_dedup.getD j.name
    let full := fileName name j.ext
    match fs.get (joinPath dir full) with
    | some data =>
      if j.isBmp then do
        let (w, h, bits) ← readBmp E data
        pure (j.toImage w h (some bits))
      else readJpeg E j full data
    | none =>
      if j.ext = "png".toList then do
        let data ← orIo (fs.get (joinPath dir (fileName name "webp".toList)))
        let s ← readJpeg E j full data
        pure (s.changeExt "webp".toList)
      else .error .io

/-- `read_images`, /repo/src/vpx/expanded/images.rs:238-343 -/
def readImages (E : ExpandEnv) (root : Str) (fs : Files) : Res (List ImageData) := do
  let js ← readOptional E root fs "images.json" (jVec jImage)
  (js.getD []).mapM (readImage E (joinPath root "images".toList) fs)

/-! ### Sounds -/

/-- `SoundData::ext`, /repo/src/vpx/sound.rs:308-319 -/
def soundExt (E : ExpandEnv) (path : Str) : Str := (strPathExt E.ext path).getD "wav".toList

/-- the file of a sound, /repo/src/vpx/expanded/sounds.rs:47-48 -/
def SoundData.file (E : ExpandEnv) (s : SoundData) (dedup : Option Str) : Str :=
  fileName (dedup.getD (E.sanitize s.name)) (soundExt E s.path)

/-- `write_sounds`, /repo/src/vpx/expanded/sounds.rs:13-72 -/
def writeSounds (E : ExpandEnv) (root : Str) (sounds : List SoundData) : List FsStep :=
  let named := sounds.zip (dedupNames E [] 0 (sounds.map (·.name)))
  jsonStep E root "sounds.json" (jVec jSound)
      (named.map fun (s, d) => { SoundDataJson.ofSound s with name_dedup := d }) ::
    named.flatMap fun (s, d) =>
      let path := joinPath (joinPath root "sounds".toList) (s.file E d)
      [.absent path, .write path (s.export E.ext)]

/-- one sound, /repo/src/vpx/expanded/sounds.rs:87-103 -/
def readSound (E : ExpandEnv) (dir : Str) (fs : Files) (j : SoundDataJson) : Res SoundData := do
  let data ← orIo (fs.get (joinPath dir (fileName (j.name_dedup.getD j.name) (soundExt E j.path))))
  SoundData.import E.ext data j.toSound

/-- `read_sounds`, /repo/src/vpx/expanded/sounds.rs:74-107 -/
def readSounds (E : ExpandEnv) (root : Str) (fs : Files) : Res (List SoundData) := do
  let js ← readOptional E root fs "sounds.json" (jVec jSound)
  (js.getD []).mapM (readSound E (joinPath root "sounds".toList) fs)

/-! ### Fonts -/

/-- the file of a font, /repo/src/vpx/expanded/fonts.rs:25-26,54-55 -/
def FontData.file (E : ExpandEnv) (s : FontData) : Str := fileName (E.sanitize s.name) s.ext

/-- `write_fonts`, /repo/src/vpx/expanded/fonts.rs:12-32 -/
def writeFonts (E : ExpandEnv) (root : Str) (fonts : List FontData) : List FsStep :=
  jsonStep E root "fonts.json" (jVec jFontData) fonts ::
    fonts.map fun s => .write (joinPath (joinPath root "fonts".toList) (s.file E)) s.data

/-- one font, /repo/src/vpx/expanded/fonts.rs:53-67 -/
def readFont (E : ExpandEnv) (dir : Str) (fs : Files) (s : FontData) : Res FontData := do
  let data ← orIo (fs.get (joinPath dir (s.file E)))
  pure { s with data := data }

/-- `read_fonts`, /repo/src/vpx/expanded/fonts.rs:34-69 -/
def readFonts (E : ExpandEnv) (root : Str) (fs : Files) : Res (List FontData) := do
  let js ← readOptional E root fs "fonts.json" (jVec jFontData)
  (js.getD []).mapM (readFont E (joinPath root "fonts".toList) fs)

/-! ### Items -/

/-- `PrimitiveMeshFormat`, /repo/src/vpx/expanded/mod.rs:38-50 -/
inductive MeshFormat where
  | Obj
  | Glb
  | Gltf
  deriving DecidableEq, Repr

/-- the extension of the files, /repo/src/vpx/expanded/primitives.rs:788-792 -/
def MeshFormat.ext : MeshFormat → Str
  | .Obj => "obj".toList
  | .Glb => "glb".toList
  | .Gltf => "gltf".toList

/-- `str::trim_end_matches(".json")` of the reversed text (used in /repo/src/vpx/expanded/primitives.rs:196) -/
def trimJsonRev : Str → Str
  | 'n' :: 'o' :: 's' :: 'j' :: '.' :: rest => trimJsonRev rest
  | s => s

/-- `str::trim_end_matches(".json")` (std): as often as it is there (used in /repo/src/vpx/expanded/primitives.rs:196) -/
def trimJson (s : Str) : Str := (trimJsonRev s.reverse).reverse

/-- the file of an animation frame without its extension, /repo/src/vpx/expanded/primitives.rs:783-794 -/
def frameStem (base : Str) (i : Nat) : Str := base ++ "_anim_".toList ++ decimal i

/-- the files of a mesh, in the order in which they are written, /repo/src/vpx/expanded/primitives.rs:69-95,614-642,
/repo/src/vpx/gltf.rs:71-101. (The name of the `.bin` file is taken from the path with `file_stem`: the stem, as
that has no `/` and is not empty.) -/
def meshFiles (E : ExpandEnv) (fmt : MeshFormat) (stem name : Str) (m : Mesh) : List (Str × Bytes) :=
  match fmt with
  | .Obj => [(fileName stem "obj".toList, E.obj.print (writeObj E.T name m))]
  | .Glb => [(fileName stem "glb".toList, writeGlbFile E.J name m)]
  | .Gltf =>
    let files := writeGltfFiles E.J stem name m
    [(fileName stem "gltf".toList, files.1), (fileName stem "bin".toList, files.2)]

/-- what a task does: the files it writes, in order, and how it ends (used in /repo/src/vpx/expanded/gameitems.rs:122) -/
abbrev Task := List (Str × Bytes) × Res Unit

/-- `write_animation_frames_to_meshes`, /repo/src/vpx/expanded/primitives.rs:597-645 -/
def frameFiles (E : ExpandEnv) (fmt : MeshFormat) (base name : Str) (m : Mesh) : Nat → List (Bytes × UInt32) → Task
  | _, [] => ([], .ok ())
  | i, (frame, len) :: rest =>
    match readFrame E.Z frame len with
    | .error e => ([], .error e)
    | .ok vs =>
      let r := frameFiles E fmt base name m (i + 1) rest
      (meshFiles E fmt (frameStem base i) name ⟨replaceVertices m.vertices vs, m.faces⟩ ++ r.1, r.2)

/-- the frames of an animation, /repo/src/vpx/expanded/primitives.rs:97-117 -/
def Primitive.frameTask (E : ExpandEnv) (fmt : MeshFormat) (stem : Str) (p : Primitive) (m : Mesh) : Task :=
  match p.compressed_animation_vertices_data, p.compressed_animation_vertices_len with
  | none, _ => ([], .ok ())
  | some _, none => ([], .error .io)
  | some frames, some lens => frameFiles E fmt (trimJson stem) p.name m 0 (frames.zip lens)

/-- `write_gameitem_binaries` for a primitive, /repo/src/vpx/expanded/primitives.rs:58-119 -/
def Primitive.meshTask (E : ExpandEnv) (fmt : MeshFormat) (stem : Str) (p : Primitive) : Task :=
  match p.readMesh E.Z with
  | .error e => ([], .error e)
  | .ok none => ([], .ok ())
  | .ok (some m) =>
    let r := p.frameTask E fmt stem m
    (meshFiles E fmt stem p.name m ++ r.1, r.2)

/-- `write_gameitem_binaries`, /repo/src/vpx/expanded/primitives.rs:58-183 -/
def binaries (E : ExpandEnv) (fmt : MeshFormat) (stem : Str) : GameItemEnum → Task
  | .primitive p => p.meshTask E fmt stem
  | _ => ([], .ok ())

/-- the file of an item, /repo/src/vpx/expanded/gameitems.rs:77,112 -/
def itemFile (stem : Str) : Str := fileName stem "json".toList

/-- `write_item`, /repo/src/vpx/expanded/gameitems.rs:111-122 -/
def itemTask (E : ExpandEnv) (fmt : MeshFormat) (stem : Str) (item : GameItemEnum) : Task :=
  let r := binaries E fmt stem item
  ((itemFile stem, writeJson E.J jGameItem item) :: r.1, r.2)

/-- the first error of the tasks, in their order, /repo/src/vpx/expanded/gameitems.rs:130-133 -/
def firstError : List Task → List FsStep
  | [] => []
  | (_, .ok _) :: rest => firstError rest
  | (_, .error e) :: _ => [.fail e]

/-- `write_gameitems`, /repo/src/vpx/expanded/gameitems.rs:65-134, for the task of each item, with the tasks one after
the other. All of them are run, also after an error. (A panic in one of them would end the loop.) -/
def writeItemTasks (E : ExpandEnv) (task : Str → GameItemEnum → Task) (root : Str) (items : List GameItemEnum) :
    List FsStep :=
  match itemStems E.U [] items with
  | .error e => [.fail e]
  | .ok stems =>
    let dir := joinPath root "gameitems".toList
    let tasks := (stems.zip items).map fun (stem, item) => task stem item
    stems.map (fun stem => .absent (joinPath dir (itemFile stem)))
      ++ [jsonStep E root "gameitems.json" (jVec jGameItemInfo)
            ((stems.zip items).map fun (stem, item) => item.info (itemFile stem))]
      ++ tasks.flatMap (fun t => t.1.map fun (file, bs) => .write (joinPath dir file) bs)
      ++ firstError tasks

/-- `write_gameitems`, /repo/src/vpx/expanded/gameitems.rs:65-134 -/
def writeItems (E : ExpandEnv) (fmt : MeshFormat) (root : Str) (items : List GameItemEnum) : List FsStep :=
  writeItemTasks E (itemTask E fmt) root items

/-- which mesh file there is, /repo/src/vpx/expanded/primitives.rs:696-711 -/
def meshFormatOf (dir : Str) (fs : Files) (stem : Str) : Option MeshFormat :=
  if (fs.get (joinPath dir (fileName stem "obj".toList))).isSome then some .Obj
  else if (fs.get (joinPath dir (fileName stem "glb".toList))).isSome then some .Glb
  else if (fs.get (joinPath dir (fileName stem "gltf".toList))).isSome then some .Gltf
  else none

/-- `read_gltf`, /repo/src/vpx/gltf.rs:322-371 -/
def readGltf (E : ExpandEnv) (dir : Str) (fs : Files) (fmt : MeshFormat) (data : Bytes) : Res Mesh := do
  let (_, m) ← match fmt with
    | .Gltf => readGltfFiles E.J (fun uri => fs.get (joinPath dir uri)) data
    | _ => readGlb E.J data
  pure m

/-- `read_obj_and_compress` and `read_gltf_and_compress`, /repo/src/vpx/expanded/primitives.rs:804-865: the number of
vertices, their bytes and the faces -/
def readMeshFile (E : ExpandEnv) (dir : Str) (fs : Files) (fmt : MeshFormat) (stem : Str) :
    Res (Nat × Bytes × List Face) := do
  let data ← orIo (fs.get (joinPath dir (fileName stem fmt.ext)))
  match fmt with
  | .Obj => do
    let ls ← E.obj.parse data
    let r ← readObj E.T ls true
    pure (r.vertices, r.encoded, r.faces)
  | fmt => do
    let m ← readGltf E dir fs fmt data
    pure (m.vertices.length, m.vertices.flatMap (·.encoded), m.faces)

/-- `read_mesh_as_frame`, /repo/src/vpx/expanded/primitives.rs:903-963 -/
def readFrameFile (E : ExpandEnv) (dir : Str) (fs : Files) (fmt : MeshFormat) (data : Bytes) : Res (List FrameVertex) :=
  match fmt with
  | .Obj => do
    let ls ← E.obj.parse data
    readObjFrame E.T ls
  | fmt => do
    let m ← readGltf E dir fs fmt data
    pure (meshFrame m)

/-- the loop over the frames, /repo/src/vpx/expanded/primitives.rs:749-761, with fuel -/
def readFrames (E : ExpandEnv) (dir : Str) (fs : Files) (fmt : MeshFormat) (base : Str) :
    Nat → Nat → Res (List (List FrameVertex))
  | 0, _ => .error .fuel
  | fuel + 1, i =>
    match fs.get (joinPath dir (fileName (frameStem base i) fmt.ext)) with
    | none => .ok []
    | some data => do
      let f ← readFrameFile E dir fs fmt data
      let rest ← readFrames E dir fs fmt base fuel (i + 1)
      pure (f :: rest)

/-- the mesh of a primitive, /repo/src/vpx/expanded/primitives.rs:690-727 -/
def readPrimitiveMesh (E : ExpandEnv) (dir : Str) (fs : Files) (base : Str) (p : Primitive) : Res Primitive :=
  match meshFormatOf dir fs base with
  | none => .ok p
  | some fmt => do
    let (n, encoded, faces) ← readMeshFile E dir fs fmt base
    pure (p.setMesh E.Z n encoded faces)

/-- the animation of a primitive, /repo/src/vpx/expanded/primitives.rs:729-779. There cannot be more frames than
files. -/
def readPrimitiveFrames (E : ExpandEnv) (dir : Str) (fs : Files) (base : Str) (p : Primitive) : Res Primitive :=
  match meshFormatOf dir fs (frameStem base 0) with
  | none => .ok p
  | some fmt => do
    let frames ← readFrames E dir fs fmt base (fs.length + 1) 0
    pure (p.setFrames E.Z frames)

/-- `read_gameitem_binaries`, /repo/src/vpx/expanded/primitives.rs:687-781 -/
def readBinaries (E : ExpandEnv) (dir : Str) (fs : Files) (file : Str) : GameItemEnum → Res GameItemEnum
  | .primitive p => do
    let base := trimJson file
    let p ← readPrimitiveMesh E dir fs base p
    let p ← readPrimitiveFrames E dir fs base p
    pure (.primitive p)
  | item => .ok item

/-- `read_game_item`, /repo/src/vpx/expanded/gameitems.rs:175-202 -/
def readItem (E : ExpandEnv) (dir : Str) (fs : Files) (i : GameItemInfo) : Res GameItemEnum := do
  let item ← readRequired E (joinPath dir i.file_name) fs jGameItem
  readBinaries E dir fs i.file_name (i.restore item)

/-- `read_gameitems`, /repo/src/vpx/expanded/gameitems.rs:146-173 -/
def readItems (E : ExpandEnv) (root : Str) (fs : Files) : Res (List GameItemEnum) := do
  let js ← readOptional E root fs "gameitems.json" (jVec jGameItemInfo)
  (js.getD []).mapM (readItem E (joinPath root "gameitems".toList) fs)

/-! ### The table -/

/-- `write_game_data`, /repo/src/vpx/expanded/metadata.rs:18-33 -/
def writeGameDataFiles (E : ExpandEnv) (root : Str) (g : GameData) : List FsStep :=
  jsonStep E root "gamedata.json" jGameData g ::
    match g.code.toBytes with
    | .ok bs => [.write (joinPath root "script.vbs".toList) bs]
    | .error e => [.fail e]

/-- `read_game_data`, /repo/src/vpx/expanded/metadata.rs:35-52 -/
def readGameDataFiles (E : ExpandEnv) (root : Str) (fs : Files) : Res GameData := do
  let g ← readRequired E (joinPath root "gamedata.json".toList) fs jGameData
  let code ← orIo (fs.get (joinPath root "script.vbs".toList))
  pure { g with code := StringWithEncoding.ofBytes code }

/-- the materials, /repo/src/vpx/expanded/mod.rs:220-236, /repo/src/vpx/expanded/materials.rs -/
def writeMaterials (E : ExpandEnv) (root : Str) (g : GameData) : List FsStep :=
  match g.materials with
  | some ms => [jsonStep E root "materials.json" (jVec jMaterial) ms]
  | none =>
    jsonStep E root "materials-old.json" (jVec jSaveMaterial) g.materials_old ::
      match g.materials_physics_old with
      | some ps => [jsonStep E root "materials-physics-old.json" (jVec jSavePhysicsMaterial) ps]
      | none => []

/-- the materials, /repo/src/vpx/expanded/mod.rs:333-355, /repo/src/vpx/expanded/materials.rs -/
def readMaterials (E : ExpandEnv) (root : Str) (fs : Files) (g : GameData) : Res GameData := do
  match ← readOptional E root fs "materials.json" (jVec jMaterial) with
  | some ms => do
    let old ← ms.mapM SaveMaterial.ofMaterial
    pure { g with
      materials_old := old
      materials_physics_old := some (ms.map SavePhysicsMaterial.ofMaterial)
      materials_size := UInt32.ofNat ms.length
      materials := some ms }
  | none =>
    match ← readOptional E root fs "materials-old.json" (jVec jSaveMaterial) with
    | some old => do
      let physics ← readOptional E root fs "materials-physics-old.json" (jVec jSavePhysicsMaterial)
      pure { g with
        materials_old := old
        materials_physics_old := physics
        materials_size := UInt32.ofNat old.length }
    | none => pure g

/-- `write_renderprobes`, /repo/src/vpx/expanded/metadata.rs:109-125 -/
def writeRenderProbes (E : ExpandEnv) (root : Str) (g : GameData) : List FsStep :=
  match g.render_probes with
  | some ps => [jsonStep E root "renderprobes.json" (jVec jRenderProbe) ps]
  | none => []

/-- the screenshot, /repo/src/vpx/expanded/mod.rs:186-193 -/
def writeScreenshot (root : Str) (info : TableInfo) : List FsStep :=
  match info.screenshot with
  | some bs => [.write (joinPath root "screenshot.png".toList) bs]
  | none => []

/-- `write_fs`, /repo/src/vpx/expanded/mod.rs:171-245, with the steps for the items -/
def tableSteps (E : ExpandEnv) (items : List FsStep) (root : Str) (t : VPX) : List FsStep :=
  [.write (joinPath root "version.txt".toList) (encodeUtf8 t.version.toText)]
  ++ writeScreenshot root t.info
  ++ [jsonStep E root "info.json" (jInfo none) (t.info, t.custominfotags)]
  ++ [jsonStep E root "collections.json" (jVec jCollection) t.collections]
  ++ items
  ++ writeImages E root t.images
  ++ writeSounds E root t.sounds
  ++ writeFonts E root t.fonts
  ++ writeGameDataFiles E root t.gamedata
  ++ writeMaterials E root t.gamedata
  ++ writeRenderProbes E root t.gamedata

/-- `write_fs`, /repo/src/vpx/expanded/mod.rs:171-245 -/
def expandSteps (E : ExpandEnv) (fmt : MeshFormat) (root : Str) (t : VPX) : List FsStep :=
  tableSteps E (writeItems E fmt root t.gameitems) root t

/-- `write_fs`, /repo/src/vpx/expanded/mod.rs:171-245 -/
def expand (E : ExpandEnv) (fmt : MeshFormat) (root : Str) (t : VPX) (fs : Files) : Res Unit × Files :=
  runSteps (expandSteps E fmt root t) fs

/-- the version, /repo/src/vpx/expanded/mod.rs:280-296 -/
def readVersionFile (root : Str) (fs : Files) : Res Version := do
  let bs ← orIo (fs.get (joinPath root "version.txt".toList))
  let s ← orIo (decodeUtf8 bs)
  Version.parse s

/-- `read_info`, /repo/src/vpx/expanded/metadata.rs:68-80 -/
def readInfo (E : ExpandEnv) (root : Str) (fs : Files) : Res (TableInfo × CustomInfoTags) := do
  let o ← readOptional E root fs "info.json" (jInfo (fs.get (joinPath root "screenshot.png".toList)))
  pure (o.getD (TableInfo.new, []))

/-- `read_fs`, /repo/src/vpx/expanded/mod.rs:278-373 -/
def assemble (E : ExpandEnv) (root : Str) (fs : Files) : Res VPX := do
  let version ← readVersionFile root fs
  let (info, custominfotags) ← readInfo E root fs
  let collections ← readOptional E root fs "collections.json" (jVec jCollection)
  let collections := collections.getD []
  let gameitems ← readItems E root fs
  let images ← readImages E root fs
  let sounds ← readSounds E root fs
  let fonts ← readFonts E root fs
  let g ← readGameDataFiles E root fs
  let g := { g with
    collections_size := UInt32.ofNat collections.length
    gameitems_size := UInt32.ofNat gameitems.length
    images_size := UInt32.ofNat images.length
    sounds_size := UInt32.ofNat sounds.length
    fonts_size := UInt32.ofNat fonts.length }
  let g ← readMaterials E root fs g
  let probes ← readOptional E root fs "renderprobes.json" (jVec jRenderProbe)
  let g := { g with render_probes := probes }
  pure { custominfotags, info, version, gamedata := g, gameitems, images, sounds, fonts, collections }

end Vpin
