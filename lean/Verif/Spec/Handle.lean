import Verif.Model.Handle
import Verif.Spec.Webp
import Verif.Spec.Vpx
import Verif.Spec.Folder
/-
What a user expects of an open table file: it holds a table, the calls that read return its parts, and the others change
the part they name. The lists of the table may be longer or shorter than the game data says: the counts in the game data
decide how many elements are returned, and elements beyond them stay in the file.
-/
namespace Vpin

/-- **Specification**: the first `count` elements of a list, if there are so many -/
inductive FirstOf {α : Type} (reply : List α → Reply) (count : UInt32) (l : List α) : Reply → Prop
  | there : count.toNat ≤ l.length → FirstOf reply count l (reply (l.take count.toNat))
  | missing : l.length < count.toNat → FirstOf reply count l (.failed .io)

/-- one report for each image that was converted, in order -/
def ReportsOf (P : PictureLib) (images : List ImageData) (conversions : List Conversion) : Prop :=
  ∃ each : List (Option Conversion), each.length = images.length ∧ conversions = each.filterMap id ∧
    ∀ (i : Nat) im o, images[i]? = some im → each[i]? = some o → ∀ cv, o = some cv ↔ Reported P im cv

/-- **Specification**: what each call returns, and the table afterwards -/
inductive HandleCall.Expects (P : PictureLib) (L : PictureLaws P) (s : VPX) : HandleCall → Reply → VPX → Prop
  | readVersion : Expects P L s .readVersion (.version s.version) s
  | readTableInfo (t : TableInfo) : s.info.Same t → Expects P L s .readTableInfo (.info t) s
  | readGameData : Expects P L s .readGameData (.gameData s.gamedata) s
  | writeGameData (g : GameData) : Expects P L s (.writeGameData g) .done { s with gamedata := g }
  | isLocked : Expects P L s .isLocked (.answer s.lockedNow) s
  | lock : Expects P L s .lock (.answer (!s.lockedNow)) (s.withLock true)
  | unlock : Expects P L s .unlock (.answer s.lockedNow) (s.withLock false)
  | readGameItems (r : Reply) : FirstOf .gameItems s.gamedata.gameitems_size s.gameitems r →
      Expects P L s .readGameItems r s
  | readImages (r : Reply) : FirstOf .images s.gamedata.images_size s.images r → Expects P L s .readImages r s
  | readSounds (r : Reply) : FirstOf .sounds s.gamedata.sounds_size s.sounds r → Expects P L s .readSounds r s
  | readFonts (r : Reply) : FirstOf .fonts s.gamedata.fonts_size s.fonts r → Expects P L s .readFonts r s
  | readCollections (r : Reply) : FirstOf .collections s.gamedata.collections_size s.collections r →
      Expects P L s .readCollections r s
  | readCustomInfoTags : Expects P L s .readCustomInfoTags (.tags s.custominfotags) s
  /-- all counted images have been taken care of, the others are as they were -/
  | imagesToWebp (images : List ImageData) (conversions : List Conversion) :
      WebpUpTo P L s.gamedata.images_size.toNat s.images images →
      ReportsOf P (s.images.take s.gamedata.images_size.toNat) conversions →
      Expects P L s .imagesToWebp (.converted conversions) { s with images := images }
  /-- the conversion stopped at an image: those before it have been taken care of. It stops only at a picture that cannot
  be encoded, or where the game data counts an image that is not there. -/
  | imagesToWebpStops (images : List ImageData) (k : Nat) (e : Err) : k < s.gamedata.images_size.toNat →
      WebpUpTo P L k s.images images →
      ((∀ im ∈ s.images.take s.gamedata.images_size.toNat, CanBecomeWebp P im) → k = s.images.length ∧ e = .io) →
      Expects P L s .imagesToWebp (.failed e) { s with images := images }

/-- a sequence of calls, each with its expected reply -/
inductive ExpectsAll (P : PictureLib) (L : PictureLaws P) : VPX → List HandleCall → List Reply → VPX → Prop
  | nil (s : VPX) : ExpectsAll P L s [] [] s
  | cons {s t u : VPX} {call : HandleCall} {calls : List HandleCall} {r : Reply} {rs : List Reply} :
      call.Expects P L s r t → ExpectsAll P L t calls rs u → ExpectsAll P L s (call :: calls) (r :: rs) u

/-- what a call needs of the table: game data that can be stored, images that can be rewritten -/
def HandleCall.Allowed (P : PictureLib) (s : VPX) : HandleCall → Prop
  | .writeGameData g => g.WF s.version.number
  | .imagesToWebp => ∀ im ∈ s.images.take s.gamedata.images_size.toNat, ReadyForWebp P im
  | _ => True

/-- the streams `<name>0`, `<name>1`, … of the file are the elements of the list, and there are no more of them -/
structure ListIn (E : Env) (c : Cfb) (name : Str) {α : Type} (dec : Bytes → Res α) (l : List α) : Prop where
  each : ∀ (i : Nat) (x : α), l[i]? = some x → ∃ bs, c.openStream E.toCfbLib (itemPath name i) = .ok bs ∧ dec bs = .ok x
  noMore : ∀ i, l.length ≤ i → c.get E.toCfbLib (itemPath name i) = none

/-- a file that holds the table: it can be worked on, passes the check, and its streams are the parts of the table -/
structure InFile (E : Env) (c : Cfb) (s : VPX) : Prop where
  file : TableFile E c s.version s.gamedata
  checked : verify E c = .ok true
  tags : readCustomInfoTags E c = .ok s.custominfotags
  info : ∃ t, TableInfo.read E.toCfbLib c = .ok t ∧ s.info.Same t
  gameitems : ListIn E c "GameItem".toList GameItemEnum.read s.gameitems
  images : ListIn E c "Image".toList ImageData.read s.images
  sounds : ListIn E c "Sound".toList (SoundData.read E.ext s.version.number) s.sounds
  fonts : ListIn E c "Font".toList FontData.read s.fonts
  collections : ListIn E c "Collection".toList Collection.read s.collections

end Vpin
