import Verif.Model.Collection
import Verif.Model.RenderProbe
import Verif.Model.Material
import Verif.Spec.Items
/-
Which collections, custom info tags, materials and render probes the file format can hold.
-/
namespace Vpin

/-- texts are Unicode texts that fit in a record -/
structure Collection.WF (s : Collection) : Prop where
  name : WText s.name
  items : ∀ i ∈ s.items, WText i

/-- texts are NUL-free Latin-1 texts that fit in a record -/
def CustomInfoTags.WF (s : CustomInfoTags) : Prop := ∀ t ∈ s, Text t

/-- a name that fits the 32 byte field of the legacy formats, with its terminator -/
def Name31 (s : Str) : Prop := IsLatin1 s ∧ NulFree s ∧ s.length ≤ 31

instance (s : Str) : Decidable (Name31 s) :=
  inferInstanceAs (Decidable ((∀ c ∈ s, _) ∧ (∀ c ∈ s, _) ∧ _))

def SaveMaterial.WF (s : SaveMaterial) : Prop := Name31 s.name
def SavePhysicsMaterial.WF (s : SavePhysicsMaterial) : Prop := Name31 s.name
def Material.WF (s : Material) : Prop := Text s.name
def RenderProbe.WF (s : RenderProbe) : Prop := Text s.name

instance (s : SaveMaterial) : Decidable s.WF := inferInstanceAs (Decidable (Name31 _))
instance (s : SavePhysicsMaterial) : Decidable s.WF := inferInstanceAs (Decidable (Name31 _))
instance (s : Material) : Decidable s.WF := inferInstanceAs (Decidable (Text _))
instance (s : RenderProbe) : Decidable s.WF := inferInstanceAs (Decidable (Text _))

def Collection.sample : Collection :=
  ⟨"Col μ".toList, ["Bumper1".toList, "😀".toList, []], true, false, true⟩

theorem Collection.sample_wf : Collection.sample.WF := ⟨by decide, by decide⟩

def Material.sample : Material :=
  { Material.default with
    name := "Métal".toList
    type_ := .Metal
    thickness := 0x7fc00001
    refraction_tint := ⟨1, 2, 3, 4⟩
    opacity_active := true }

def SaveMaterial.sample : SaveMaterial :=
  ⟨"Métal".toList, ⟨1, 2, 3, 4⟩, ⟨5, 6, 7, 8⟩, ⟨9, 10, 11, 12⟩, 0x3f800000, true, 0x7fc00001, 3,
   0x80000000, 5, 0x3f000000, 255⟩

def SavePhysicsMaterial.sample : SavePhysicsMaterial :=
  ⟨"0123456789012345678901234567890".toList, 1, 2, 3, 0xffffffff⟩

def RenderProbe.sample : RenderProbe :=
  ⟨.ScreenSpaceTransparency, "Pröbe".toList, 3, some 4, ⟨1, 2, 3, 4⟩, .Dynamic, some true⟩

end Vpin
