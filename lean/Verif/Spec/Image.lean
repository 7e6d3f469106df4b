import Verif.Model.Image
import Verif.Spec.Items
/-
Which images the file format can hold.
-/
namespace Vpin

/-- an embedded file whose texts are representable and whose contents fit in a record -/
structure ImageDataJpeg.WF (s : ImageDataJpeg) : Prop where
  name : Text s.name
  internal_name : OptP Text s.internal_name
  path : Text s.path
  data : RecordData s.data

/-- texts are representable, the hash has 16 bytes, and the embedded file fits -/
structure ImageData.Fields (s : ImageData) : Prop where
  name : Text s.name
  internal_name : OptP Text s.internal_name
  path : Text s.path
  md5_hash : OptP (fun h => h.length = 16) s.md5_hash
  jpeg : OptP ImageDataJpeg.WF s.jpeg

/-- the four letters ALTV do not occur in the data -/
def NoAltv (d : Bytes) : Prop := ¬ altvBytes <:+: d

instance (d : Bytes) : Decidable (NoAltv d) := inferInstanceAs (Decidable (¬ _))

/-- a raw bitmap does not contain the letters ALTV and is not accompanied by an embedded file -/
structure ImageData.WF (s : ImageData) : Prop extends s.Fields where
  bits : OptP NoAltv s.bits
  one : s.bits = none ∨ s.jpeg = none

def ImageData.sample : ImageData where
  name := "Playfield é".toList
  internal_name := some "PLAYFIELD".toList
  path := "C:\\x.y\\playfield.png".toList
  width := 2
  height := 0x80000001
  link := some 1
  alpha_test_value := 0x7fc00001
  is_opaque := some true
  is_signed := some false
  jpeg := some ⟨"a.png".toList, "é".toList, some [], altvBytes ++ [0x45, 0x4e, 0x44, 0x42]⟩
  bits := none
  md5_hash := some [0, 1, 2, 3, 4, 5, 6, 7, 8, 9, 10, 11, 12, 13, 14, 15]

def ImageData.sampleBits : ImageData :=
  { ImageData.sample with
    jpeg := none
    bits := some [0x41, 0x4c, 0x54, 0x41, 0x4c, 0x54] }

end Vpin
