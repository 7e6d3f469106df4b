import Verif.Model.TableInfo
import Verif.Model.Version
import Verif.Model.Collection
import Verif.Model.GameData
import Verif.Model.GameItem
import Verif.Model.Image
import Verif.Model.Sound
import Verif.Model.FontData
/-
/repo/src/vpx/mod.rs: whole table files.
-/
namespace Vpin

/-- The parts outside the code: the compound file library, `Path::extension` and the MD2 hash. (used in
/repo/src/vpx/mod.rs:643-777) -/
structure Env extends CfbLib where
  ext : Str → Option Str
  md2 : Bytes → Bytes

/-- `VPX`, /repo/src/vpx/mod.rs:98-110 -/
structure VPX where
  custominfotags : CustomInfoTags
  info : TableInfo
  version : Version
  gamedata : GameData
  gameitems : List GameItemEnum
  images : List ImageData
  sounds : List SoundData
  fonts : List FontData
  collections : List Collection

/-! ## Editing in memory -/

/-- `add_game_item`, /repo/src/vpx/mod.rs:118-122 -/
def VPX.addGameItem (s : VPX) (item : GameItemEnum) : VPX :=
  let items := s.gameitems ++ [item]
  { s with
    gameitems := items
    gamedata := { s.gamedata with gameitems_size := UInt32.ofNat items.length } }

/-- `set_code`, /repo/src/vpx/gamedata.rs:1538-1540 -/
def GameData.setCode (s : GameData) (script : Str) : GameData := { s with code := ⟨.utf8, script⟩ }

/-- `set_script`, /repo/src/vpx/mod.rs:124-127 -/
def VPX.setScript (s : VPX) (script : Str) : VPX := { s with gamedata := s.gamedata.setCode script }

/-- `add_or_replace_image`, /repo/src/vpx/mod.rs:129-147; the result tells which image was replaced.
`images_size += 1` is taken modulo 2^32 (release builds). -/
def VPX.addOrReplaceImage (s : VPX) (image : ImageData) : VPX × Option ImageData :=
  match s.images.findIdx? (fun i => eqIgnoreAsciiCase i.name image.name) with
  | some pos => ({ s with images := s.images.set pos image }, s.images[pos]?)
  | none =>
    ({ s with
       images := s.images ++ [image]
       gamedata := { s.gamedata with images_size := s.gamedata.images_size + 1 } }, none)

/-! ## Parts of the file -/

/-- the storage for everything but the table info, /repo/src/vpx/mod.rs:497-500 -/
def gameStg : Str := "GameStg".toList

/-- `GameStg/<name>` (used in /repo/src/vpx/mod.rs:815-829) -/
def gamePath (name : Str) : Path := [gameStg, name]

/-- `GameStg/<name><index>` (used in /repo/src/vpx/mod.rs:863-871) -/
def itemPath (name : Str) (index : Nat) : Path := gamePath (name ++ decimal index)

/-- `read_version`, /repo/src/vpx/version.rs:70-74 -/
def readVersion (E : Env) (c : Cfb) : Res Version := do
  Version.ofBytes (← c.openStream E.toCfbLib (gamePath "Version".toList))

/-- `write_version`, /repo/src/vpx/version.rs:76-84 -/
def writeVersion (E : Env) (v : Version) (c : Cfb) : Res Cfb :=
  c.createStream E.toCfbLib (gamePath "Version".toList) v.bytes

/-- `read_gamedata`, /repo/src/vpx/mod.rs:801-813 -/
def readGameData (E : Env) (v : Version) (c : Cfb) : Res GameData := do
  GameData.read v.number (← c.openStream E.toCfbLib (gamePath "GameData".toList))

/-- `write_game_data`, /repo/src/vpx/mod.rs:815-829 -/
def writeGameData (E : Env) (g : GameData) (v : Version) (c : Cfb) : Res Cfb := do
  let data ← g.write v.number
  c.createStream E.toCfbLib (gamePath "GameData".toList) data

/-- `read_custominfotags`, /repo/src/vpx/mod.rs:1119-1133: no stream means no tags -/
def readCustomInfoTags (E : Env) (c : Cfb) : Res CustomInfoTags :=
  match c.get E.toCfbLib (gamePath "CustomInfoTags".toList) with
  | some (.stream bs) => CustomInfoTags.read bs
  | _ => .ok []

/-- `write_custominfotags`, /repo/src/vpx/mod.rs:1135-1146 -/
def writeCustomInfoTags (E : Env) (t : CustomInfoTags) (c : Cfb) : Res Cfb := do
  let data ← CustomInfoTags.write t
  c.createStream E.toCfbLib (gamePath "CustomInfoTags".toList) data

/-- the loops of `write_game_items`, `write_sounds`, `write_fonts`, `write_collections`
(/repo/src/vpx/mod.rs:850-871, 904-919, 938-951, 1106-1117): one stream per element -/
def writeFrom {α : Type} (E : Env) (name : Str) (enc : α → Res Bytes) : Nat → List α → Cfb → Res Cfb
  | _, [], c => .ok c
  | i, x :: xs, c => do
    let data ← enc x
    let c ← c.createStream E.toCfbLib (itemPath name i) data
    writeFrom E name enc (i + 1) xs c

/-- `write_images`, /repo/src/vpx/mod.rs:973-1000: the stream must be new -/
def writeImagesFrom (E : Env) : Nat → List ImageData → Cfb → Res Cfb
  | _, [], c => .ok c
  | i, x :: xs, c => do
    let data ← x.write
    let c ← c.createNewStream E.toCfbLib (itemPath "Image".toList i) data
    writeImagesFrom E (i + 1) xs c

/-- the loops of `read_gameitems`, `read_sounds`, `read_collections`, `read_images`, `read_fonts`
(/repo/src/vpx/mod.rs:832-847, 874-901, 921-936, 954-970, 1089-1104) over `index .. index + n` -/
def readFrom {α : Type} (E : Env) (name : Str) (dec : Bytes → Res α) : Nat → Nat → Cfb → Res (List α)
  | _, 0, _ => .ok []
  | i, n + 1, c => do
    let x ← dec (← c.openStream E.toCfbLib (itemPath name i))
    let xs ← readFrom E name dec (i + 1) n c
    pure (x :: xs)

/-! ## The checksum -/

/-- the loop over the records of a stream in `generate_mac`, /repo/src/vpx/mod.rs:718-747: what is fed to
the hash. `f` bounds the number of records. -/
def hashLoop : Nat → Bytes → R Bytes
  | 0, _ => fun _ => .error .fuel
  | f + 1, acc => do
    let r ← get
    if r.isEof then pure acc
    else
      next
      let t ← getTag
      if t = tag!"CODE" then
        let n ← getU32N
        let d ← takeN n.toNat
        hashLoop f (acc ++ [0x43, 0x4f, 0x44, 0x45] ++ d)
      else
        let d ← getRecordDataWithTag
        hashLoop f (acc ++ d)

/-- what `generate_mac` hashes of a record stream, /repo/src/vpx/mod.rs:713-748 -/
def hashBiff (data : Bytes) : Res Bytes :=
  match hashLoop (data.length + 1) [] (Rd.new data) with
  | .ok (d, _) => .ok d
  | .error e => .error e

/-- the names in a `CustomInfoTags` stream as `generate_mac` reads them, /repo/src/vpx/mod.rs:751-772 -/
def custLoop : Nat → List Str → R (List Str)
  | 0, _ => fun _ => .error .fuel
  | f + 1, acc => do
    let r ← get
    if r.isEof then pure acc
    else
      next
      let t ← getTag
      if t = tag!"CUST" then
        let name ← getString
        custLoop f (acc ++ [name])
      else
        skipTag
        custLoop f acc

/-- the names in the list of custom info tags (used in /repo/src/vpx/mod.rs:643-777) -/
def custNames (data : Bytes) : Res (List Str) :=
  match custLoop (data.length + 1) [] (Rd.new data) with
  | .ok (d, _) => .ok d
  | .error e => .error e

/-- `read_bytes_at` if the path exists, nothing otherwise, /repo/src/vpx/mod.rs:704-712 -/
def bytesIf (L : CfbLib) (c : Cfb) (p : Path) : Res Bytes :=
  if c.exists L p then c.openStream L p else .ok []

/-- as `bytesIf`, for a path given as a string (used in /repo/src/vpx/mod.rs:643-777) -/
def bytesIfAt (L : CfbLib) (c : Cfb) (s : Str) : Res Bytes :=
  if c.existsAt L s then c.openAt L s else .ok []

/-- concatenation of parts (used in /repo/src/vpx/mod.rs:643-777) -/
def concatM {α : Type} (f : α → Res Bytes) : List α → Res Bytes
  | [] => .ok []
  | x :: xs => do
    let a ← f x
    let b ← concatM f xs
    pure (a ++ b)

/-- the table info streams that are hashed, in order, /repo/src/vpx/mod.rs:681-694 -/
def hashedInfo : List Str :=
  ["TableName".toList, "AuthorName".toList, "TableVersion".toList, "ReleaseDate".toList,
   "AuthorEmail".toList, "AuthorWebSite".toList, "TableBlurb".toList, "TableDescription".toList,
   "TableRules".toList, "Screenshot".toList]

/-- the stream of custom info tags and, after it, the value of every tag it names (used in /repo/src/vpx/mod.rs:643-777) -/
def hashCustom (L : CfbLib) (c : Cfb) : Res Bytes :=
  if c.exists L (gamePath "CustomInfoTags".toList) then do
    let bs ← c.openStream L (gamePath "CustomInfoTags".toList)
    let a ← hashBiff bs
    let names ← custNames bs
    let b ← concatM (fun name => bytesIfAt L c (infoStg ++ ['/'] ++ name)) names
    pure (a ++ b)
  else .ok []

/-- a record stream, if it exists (used in /repo/src/vpx/mod.rs:643-777) -/
def hashBiffIf (L : CfbLib) (c : Cfb) (p : Path) : Res Bytes :=
  if c.exists L p then do hashBiff (← c.openStream L p) else .ok []

/-- `append_structure`, /repo/src/vpx/mod.rs:650-675: `Collection0`, `Collection1`, ... while they exist.
There are at most as many as there are entries in the file (`Lemmas/Mac.lean: collections_bound`). -/
def collectionPaths (L : CfbLib) (c : Cfb) : List Path :=
  ((List.range (c.length + 1)).map (itemPath "Collection".toList)).takeWhile (c.exists L)

/-- everything `generate_mac` feeds to the hash, /repo/src/vpx/mod.rs:643-777 -/
def macInput (L : CfbLib) (c : Cfb) : Res Bytes := do
  let v ← bytesIf L c (gamePath "Version".toList)
  let info ← concatM (fun n => bytesIf L c [infoStg, n]) hashedInfo
  let cust ← hashCustom L c
  let data ← hashBiffIf L c (gamePath "GameData".toList)
  let colls ← concatM (hashBiffIf L c) (collectionPaths L c)
  pure ("Visual Pinball".toList.map (fun ch => UInt8.ofNat ch.toNat) ++ v ++ info ++ cust ++ data ++ colls)

/-- `generate_mac`, /repo/src/vpx/mod.rs:643-777 -/
def generateMac (E : Env) (c : Cfb) : Res Bytes := do
  return E.md2 (← macInput E.toCfbLib c)

/-- `read_mac`, /repo/src/vpx/mod.rs:599-612 -/
def readMac (E : Env) (c : Cfb) : Res Bytes := c.openStream E.toCfbLib (gamePath "MAC".toList)

/-- `write_mac`, /repo/src/vpx/mod.rs:614-618 -/
def writeMac (E : Env) (mac : Bytes) (c : Cfb) : Res Cfb :=
  c.createStream E.toCfbLib (gamePath "MAC".toList) mac

/-- `verify`, /repo/src/vpx/mod.rs:560-583: true for `VerifyResult::Ok`; an input error counts as
failure, a panic stays a panic -/
def verify (E : Env) (c : Cfb) : Res Bool :=
  match (do
    let mac ← readMac E c
    let g ← generateMac E c
    pure (mac, g) : Res (Bytes × Bytes)) with
  | .ok (mac, g) => .ok (mac == g)
  | .error .io => .ok false
  | .error e => .error e

/-- `generate_mac` followed by `write_mac` (used in /repo/src/vpx/mod.rs:220-230) -/
def refreshMac (E : Env) (c : Cfb) : Res Cfb := do
  let mac ← generateMac E c
  writeMac E mac c

/-! ## Whole tables -/

/-- `write_vpx` on a new compound file, /repo/src/vpx/mod.rs:446-471 -/
def VPX.write (E : Env) (s : VPX) : Res Cfb := do
  let c ← Cfb.createStorage E.toCfbLib [] [gameStg]
  let c ← writeCustomInfoTags E s.custominfotags c
  let c ← s.info.write E.toCfbLib c
  let c ← writeVersion E s.version c
  let c ← writeGameData E s.gamedata s.version c
  let c ← writeFrom E "GameItem".toList GameItemEnum.write 0 s.gameitems c
  let c ← writeImagesFrom E 0 s.images c
  let c ← writeFrom E "Sound".toList (SoundData.write E.ext s.version.number) 0 s.sounds c
  let c ← writeFrom E "Font".toList FontData.write 0 s.fonts c
  let c ← writeFrom E "Collection".toList Collection.write 0 s.collections c
  refreshMac E c

/-- `read_vpx`, /repo/src/vpx/mod.rs:422-444 -/
def VPX.read (E : Env) (c : Cfb) : Res VPX := do
  let custominfotags ← readCustomInfoTags E c
  let info ← TableInfo.read E.toCfbLib c
  let version ← readVersion E c
  let gamedata ← readGameData E version c
  let gameitems ← readFrom E "GameItem".toList GameItemEnum.read 0 gamedata.gameitems_size.toNat c
  let images ← readFrom E "Image".toList ImageData.read 0 gamedata.images_size.toNat c
  let sounds ← readFrom E "Sound".toList (SoundData.read E.ext version.number) 0
    gamedata.sounds_size.toNat c
  let fonts ← readFrom E "Font".toList FontData.read 0 gamedata.fonts_size.toNat c
  let collections ← readFrom E "Collection".toList Collection.read 0
    gamedata.collections_size.toNat c
  pure { custominfotags, info, version, gamedata, gameitems, images, sounds, fonts, collections }

/-- `write_minimal_vpx`, /repo/src/vpx/mod.rs:485-495 -/
def writeMinimal (E : Env) : Res Cfb := do
  let c ← TableInfo.new.write E.toCfbLib []
  let c ← c.createStorage E.toCfbLib [gameStg]
  let c ← writeVersion E ⟨1072⟩ c
  let c ← writeGameData E GameData.default ⟨1072⟩ c
  refreshMac E c

/-! ## Operations on a file -/

/-- `VpxFile::write_gamedata`, /repo/src/vpx/mod.rs:220-226 -/
def updateGameData (E : Env) (g : GameData) (c : Cfb) : Res Cfb := do
  let v ← readVersion E c
  let c ← writeGameData E g v c
  refreshMac E c

/-- `VpxFile::read_gamedata`, /repo/src/vpx/mod.rs:209-212 -/
def fileGameData (E : Env) (c : Cfb) : Res GameData := do
  readGameData E (← readVersion E c) c

/-- the lock counter; absent counts as 0, /repo/src/vpx/mod.rs:232-240 -/
def GameData.lockCount (g : GameData) : UInt32 := g.locked.getD 0

/-- `is_locked`, /repo/src/vpx/mod.rs:232-234 -/
def isLocked (E : Env) (c : Cfb) : Res Bool := do
  return (← fileGameData E c).lockCount &&& 1 != 0

/-- `lock`, /repo/src/vpx/mod.rs:242-250: the result and the file afterwards -/
def lock (E : Env) (c : Cfb) : Res (Bool × Cfb) := do
  let g ← fileGameData E c
  if g.lockCount &&& 1 != 0 then pure (false, c)
  else
    let c ← updateGameData E { g with locked := some (g.lockCount + 1) } c
    pure (true, c)

/-- `unlock`, /repo/src/vpx/mod.rs:259-268 -/
def unlock (E : Env) (c : Cfb) : Res (Bool × Cfb) := do
  let g ← fileGameData E c
  if g.lockCount &&& 1 == 0 then pure (false, c)
  else
    let c ← updateGameData E { g with locked := some (g.lockCount + 1) } c
    pure (true, c)

/-- `extractvbs`, /repo/src/vpx/mod.rs:508-527 and `extract_script` 796-799, with the content of the script
file (if any) before and after; true means `Extracted` -/
def extractScript (E : Env) (c : Cfb) (script : Option Bytes) (overwrite : Bool) :
    Res (Bool × Option Bytes) :=
  match script with
  | some old =>
    if overwrite then do
      let g ← fileGameData E c
      pure (true, some (encodeUtf8 g.code.string))
    else .ok (false, some old)
  | none => do
    let g ← fileGameData E c
    pure (true, some (encodeUtf8 g.code.string))

/-- `importvbs`, /repo/src/vpx/mod.rs:536-557, with the content of the script file (if any) -/
def importScript (E : Env) (c : Cfb) (script : Option Bytes) : Res Cfb :=
  match script with
  | none => .error .io
  | some bs => do
    let v ← readVersion E c
    let g ← readGameData E v c
    match decodeUtf8 bs with
    | none => .error .io
    | some text =>
      let c ← writeGameData E (g.setCode text) v c
      refreshMac E c

end Vpin
