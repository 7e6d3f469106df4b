import Verif.Model.Webp
/-
/repo/src/vpx/mod.rs:181-314, `VpxFile`: a handle to an open table file, opened for reading and writing. Every call is
given with the file as it is when the call returns or panics. The file is the compound file as the library sees it; what
reaches the disk and when is not modelled here (see Model/Folder.lean and Model/Compact.lean).
-/
namespace Vpin

/-- a call that may leave the file changed even if it fails, /repo/src/vpx/mod.rs:186-316 -/
abbrev OnFile (α : Type) := Res α × Cfb

/-- `write_game_data`, /repo/src/vpx/mod.rs:814-829: the stream is created, or emptied, before the game data is encoded.
`Vpin.writeGameData` has the same result when it succeeds, see `saveGameData_ok`. -/
def saveGameData (E : Env) (g : GameData) (v : Version) (c : Cfb) : OnFile Unit :=
  match c.createStream E.toCfbLib (gamePath "GameData".toList) [] with
  | .error e => (.error e, c)
  | .ok c =>
    match g.write v.number with
    | .error e => (.error e, c)
    | .ok data =>
      match c.createStream E.toCfbLib (gamePath "GameData".toList) data with
      | .error e => (.error e, c)
      | .ok c => (.ok (), c)

/-- `generate_mac` and `write_mac` as `VpxFile::write_gamedata` calls them, /repo/src/vpx/mod.rs:223-224 -/
def saveMac (E : Env) (c : Cfb) : OnFile Unit :=
  match refreshMac E c with
  | .error e => (.error e, c)
  | .ok c => (.ok (), c)

/-- `VpxFile::write_gamedata`, /repo/src/vpx/mod.rs:220-226 -/
def handleWrite (E : Env) (g : GameData) (c : Cfb) : OnFile Unit :=
  match readVersion E c with
  | .error e => (.error e, c)
  | .ok v =>
    match saveGameData E g v c with
    | (.error e, c) => (.error e, c)
    | (.ok (), c) => saveMac E c

/-- the end of `VpxFile::lock` and `VpxFile::unlock`, /repo/src/vpx/mod.rs:248-250, 265-267 -/
def handleCount (E : Env) (g : GameData) (c : Cfb) : OnFile Bool :=
  match handleWrite E { g with locked := some (g.lockCount + 1) } c with
  | (.error e, c) => (.error e, c)
  | (.ok (), c) => (.ok true, c)

/-- `VpxFile::lock`, /repo/src/vpx/mod.rs:242-250 -/
def handleLock (E : Env) (c : Cfb) : OnFile Bool :=
  match fileGameData E c with
  | .error e => (.error e, c)
  | .ok g => if g.lockCount &&& 1 != 0 then (.ok false, c) else handleCount E g c

/-- `VpxFile::unlock`, /repo/src/vpx/mod.rs:259-268 -/
def handleUnlock (E : Env) (c : Cfb) : OnFile Bool :=
  match fileGameData E c with
  | .error e => (.error e, c)
  | .ok g => if g.lockCount &&& 1 == 0 then (.ok false, c) else handleCount E g c

/-- `VpxFile::read_gameitems`, /repo/src/vpx/mod.rs:270-273 -/
def handleItems (E : Env) (c : Cfb) : Res (List GameItemEnum) := do
  let g ← fileGameData E c
  readFrom E "GameItem".toList GameItemEnum.read 0 g.gameitems_size.toNat c

/-- `VpxFile::read_images`, /repo/src/vpx/mod.rs:275-278 -/
def handleImages (E : Env) (c : Cfb) : Res (List ImageData) := do
  let g ← fileGameData E c
  readFrom E "Image".toList ImageData.read 0 g.images_size.toNat c

/-- `VpxFile::read_sounds`, /repo/src/vpx/mod.rs:280-284 -/
def handleSounds (E : Env) (c : Cfb) : Res (List SoundData) := do
  let v ← readVersion E c
  let g ← fileGameData E c
  readFrom E "Sound".toList (SoundData.read E.ext v.number) 0 g.sounds_size.toNat c

/-- `VpxFile::read_fonts`, /repo/src/vpx/mod.rs:286-289 -/
def handleFonts (E : Env) (c : Cfb) : Res (List FontData) := do
  let g ← fileGameData E c
  readFrom E "Font".toList FontData.read 0 g.fonts_size.toNat c

/-- `VpxFile::read_collections`, /repo/src/vpx/mod.rs:291-294 -/
def handleCollections (E : Env) (c : Cfb) : Res (List Collection) := do
  let g ← fileGameData E c
  readFrom E "Collection".toList Collection.read 0 g.collections_size.toNat c

/-- the methods of `VpxFile`, /repo/src/vpx/mod.rs:186-314 -/
inductive HandleCall where
  | readVersion
  | readTableInfo
  | readGameData
  | writeGameData (g : GameData)
  | isLocked
  | lock
  | unlock
  | readGameItems
  | readImages
  | readSounds
  | readFonts
  | readCollections
  | readCustomInfoTags
  | imagesToWebp

/-- what a call returns, /repo/src/vpx/mod.rs:186-316 -/
inductive Reply where
  | version (v : Version)
  | info (t : TableInfo)
  | gameData (g : GameData)
  | done
  | answer (b : Bool)
  | gameItems (l : List GameItemEnum)
  | images (l : List ImageData)
  | sounds (l : List SoundData)
  | fonts (l : List FontData)
  | collections (l : List Collection)
  | tags (t : CustomInfoTags)
  | converted (l : List Conversion)
  | failed (e : Err)

/-- a result as a reply, /repo/src/vpx/mod.rs:186-316 -/
def Reply.of {α : Type} (f : α → Reply) : Res α → Reply
  | .ok a => f a
  | .error e => .failed e

/-- a method of `VpxFile`, /repo/src/vpx/mod.rs:186-314: what it returns, and the file afterwards. `read_version`,
`read_tableinfo`, `read_gamedata` and `read_custominfotags` (201-212, 296-298) hand on the calls of the module. -/
def HandleCall.run (E : Env) (P : PictureLib) (c : Cfb) : HandleCall → Reply × Cfb
  | .readVersion => (.of .version (Vpin.readVersion E c), c)
  | .readTableInfo => (.of .info (TableInfo.read E.toCfbLib c), c)
  | .readGameData => (.of .gameData (fileGameData E c), c)
  | .writeGameData g => let r := handleWrite E g c; (.of (fun _ => .done) r.1, r.2)
  | .isLocked => (.of .answer (Vpin.isLocked E c), c)
  | .lock => let r := handleLock E c; (.of .answer r.1, r.2)
  | .unlock => let r := handleUnlock E c; (.of .answer r.1, r.2)
  | .readGameItems => (.of .gameItems (handleItems E c), c)
  | .readImages => (.of .images (handleImages E c), c)
  | .readSounds => (.of .sounds (handleSounds E c), c)
  | .readFonts => (.of .fonts (handleFonts E c), c)
  | .readCollections => (.of .collections (handleCollections E c), c)
  | .readCustomInfoTags => (.of .tags (Vpin.readCustomInfoTags E c), c)
  | .imagesToWebp => let r := Vpin.imagesToWebp E P c; (.of .converted r.1, r.2)

/-- a sequence of calls on one handle; after a failed one the handle can still be used, /repo/src/vpx/mod.rs:186-316 -/
def runHandle (E : Env) (P : PictureLib) : List HandleCall → Cfb → List Reply × Cfb
  | [], c => ([], c)
  | call :: calls, c =>
    let r := call.run E P c
    let rs := runHandle E P calls r.2
    (r.1 :: rs.1, rs.2)

end Vpin
