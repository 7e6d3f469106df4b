import Verif.Model.FontData
import Verif.Spec.Items
namespace Vpin

/-- a font whose texts are representable and whose file fits in a record -/
structure FontData.WF (s : FontData) : Prop where
  name : Text s.name
  path : Text s.path
  data : RecordData s.data

def FontData.sample : FontData where
  name := "Dräger".toList
  path := "C:\\fonts\\drager.TTF".toList
  data := [0x44, 0x41, 0x54, 0x41, 0, 4, 0, 0, 0, 0x45, 0x4e, 0x44, 0x42]

end Vpin
