import Verif.Model.Vpx
import Verif.Spec.TableInfo
import Verif.Spec.GameData
import Verif.Spec.GameItem
import Verif.Spec.Image
import Verif.Spec.Sound
import Verif.Spec.FontData
import Verif.Spec.Structs
/-
Which tables a file can hold, and when two are the same.
-/
namespace Vpin

/-- a custom info tag that names a property and nothing else: it is one component of a path -/
def TagName (t : Str) : Prop := t ≠ [] ∧ '/' ∉ t ∧ t ≠ ['.'] ∧ t ≠ ['.', '.']

instance (t : Str) : Decidable (TagName t) := inferInstanceAs (Decidable (_ ∧ _ ∧ _ ∧ _))

/-- a sound of which a file of this version loses nothing -/
structure SoundData.Storable (ext : Str → Option Str) (version : UInt32) (s : SoundData) : Prop where
  wf : s.WF
  wave : isWav ext s.path ∨ s.wave_form = WaveForm.default
  volume : 1031 ≤ version.toNat ∨ s.volume = 0 ∧ s.balance = 0 ∧ s.fade = 0

/-- the counts in the game data are the lengths of the lists -/
structure VPX.Counts (s : VPX) : Prop where
  gameitems : s.gamedata.gameitems_size.toNat = s.gameitems.length
  images : s.gamedata.images_size.toNat = s.images.length
  sounds : s.gamedata.sounds_size.toNat = s.sounds.length
  fonts : s.gamedata.fonts_size.toNat = s.fonts.length
  collections : s.gamedata.collections_size.toNat = s.collections.length

/-- Every part of the table can be stored, and the counts agree with the lists. -/
structure VPX.WF (E : Env) (s : VPX) : Prop where
  tags : ∀ t ∈ s.custominfotags, Text t ∧ TagName t
  info : s.info.WF E.toCfbLib
  gamedata : s.gamedata.WF s.version.number
  gameitems : ∀ x ∈ s.gameitems, x.WF
  images : ∀ x ∈ s.images, x.WF
  sounds : ∀ x ∈ s.sounds, x.Storable E.ext s.version.number
  fonts : ∀ x ∈ s.fonts, x.WF
  collections : ∀ x ∈ s.collections, x.WF
  counts : s.Counts

/-- Equality of tables: everything is equal, lists in order; the properties in the table info are a
map. -/
structure VPX.Same (a b : VPX) : Prop where
  custominfotags : a.custominfotags = b.custominfotags
  info : a.info.Same b.info
  version : a.version = b.version
  gamedata : a.gamedata = b.gamedata
  gameitems : a.gameitems = b.gameitems
  images : a.images = b.images
  sounds : a.sounds = b.sounds
  fonts : a.fonts = b.fonts
  collections : a.collections = b.collections

/-- the environment used in examples; its hash adds up the bytes -/
def sampleEnv : Env where
  toCfbLib := sampleLib
  ext := unixExt
  md2 := fun bs => [bs.foldl (fun a b => a + b) 0]

end Vpin
