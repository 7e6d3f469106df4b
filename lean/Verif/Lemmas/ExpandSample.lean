import Verif.Lemmas.JsonSample
import Verif.Props.FileNames
import Verif.Props.Gltf
import Verif.Spec.Expanded
import Verif.Spec.FontData
import Verif.Spec.Image
import Verif.Spec.Structs
/-
Libraries that meet the assumptions of `ExpandEnv`, and a table, for examples. The formats are not the real ones.
-/
namespace Vpin

/-! ### OBJ lines -/

def encOpt : Option Nat → Bytes
  | none => encNat 0
  | some n => encNat (n + 1)

def decOpt (bs : Bytes) : Option (Option Nat × Bytes) :=
  match decNat bs with
  | none => none
  | some (0, r) => some (none, r)
  | some (n + 1, r) => some (some n, r)

theorem decOpt_enc (o : Option Nat) (r : Bytes) : decOpt (encOpt o ++ r) = some (o, r) := by
  cases o with
  | none => unfold decOpt encOpt; rw [decNat_enc]
  | some n => unfold decOpt encOpt; rw [decNat_enc]

def encCorner (c : Nat × Option Nat × Option Nat) : Bytes := encNat c.1 ++ (encOpt c.2.1 ++ encOpt c.2.2)

def decCorner (bs : Bytes) : Option ((Nat × Option Nat × Option Nat) × Bytes) :=
  match decNat bs with
  | none => none
  | some (a, r) =>
    match decOpt r with
    | none => none
    | some (b, r) =>
      match decOpt r with
      | none => none
      | some (c, r) => some ((a, b, c), r)

theorem decCorner_enc (c : Nat × Option Nat × Option Nat) (r : Bytes) : decCorner (encCorner c ++ r) = some (c, r) := by
  unfold decCorner encCorner
  simp only [List.append_assoc]
  rw [decNat_enc]
  dsimp only
  rw [decOpt_enc]
  dsimp only
  rw [decOpt_enc]

theorem decMany_enc {α : Type} {dec : Bytes → Option (α × Bytes)} {enc : α → Bytes}
    (h : ∀ a r, dec (enc a ++ r) = some (a, r)) : ∀ (l : List α) (r : Bytes),
    decMany dec l.length (l.flatMap enc ++ r) = some (l, r)
  | [], _ => rfl
  | a :: l, r => by
    rw [List.flatMap_cons, List.append_assoc, List.length_cons]
    exact decMany_cons (h a _) (decMany_enc h l r)

/-- a line as a list of texts, or the corners -/
def encLine : ObjLine → Bytes
  | .comment s => 0 :: encStr s
  | .object s => 1 :: encStr s
  | .v x y z => 2 :: (encStr x ++ (encStr y ++ encStr z))
  | .vt u v => 3 :: (encStr u ++ encStr v)
  | .vn x y z => 4 :: (encStr x ++ (encStr y ++ encStr z))
  | .f cs => 5 :: (encNat cs.length ++ cs.flatMap encCorner)

def decLine : Bytes → Option (ObjLine × Bytes)
  | 0 :: r => (decStr r).map fun x => (.comment x.1, x.2)
  | 1 :: r => (decStr r).map fun x => (.object x.1, x.2)
  | 2 :: r => (decStr r).bind fun x => (decStr x.2).bind fun y => (decStr y.2).map fun z => (.v x.1 y.1 z.1, z.2)
  | 3 :: r => (decStr r).bind fun x => (decStr x.2).map fun y => (.vt x.1 y.1, y.2)
  | 4 :: r => (decStr r).bind fun x => (decStr x.2).bind fun y => (decStr y.2).map fun z => (.vn x.1 y.1 z.1, z.2)
  | 5 :: r => (decNat r).bind fun n => (decMany decCorner n.1 n.2).map fun x => (.f x.1, x.2)
  | _ => none

theorem decLine_enc (l : ObjLine) (r : Bytes) : decLine (encLine l ++ r) = some (l, r) := by
  cases l with
  | comment s => show (decStr (encStr s ++ r)).map _ = _; rw [decStr_enc]; rfl
  | object s => show (decStr (encStr s ++ r)).map _ = _; rw [decStr_enc]; rfl
  | v x y z =>
    show (decStr ((encStr x ++ (encStr y ++ encStr z)) ++ r)).bind _ = _
    simp only [List.append_assoc, decStr_enc, Option.bind_some, Option.map_some]
  | vt x y =>
    show (decStr ((encStr x ++ encStr y) ++ r)).bind _ = _
    simp only [List.append_assoc, decStr_enc, Option.bind_some, Option.map_some]
  | vn x y z =>
    show (decStr ((encStr x ++ (encStr y ++ encStr z)) ++ r)).bind _ = _
    simp only [List.append_assoc, decStr_enc, Option.bind_some, Option.map_some]
  | f cs =>
    show (decNat ((encNat cs.length ++ cs.flatMap encCorner) ++ r)).bind _ = _
    simp only [List.append_assoc, decNat_enc, Option.bind_some]
    rw [decMany_enc decCorner_enc]
    rfl

def sampleObjText : ObjText byteText where
  print ls := encNat ls.length ++ ls.flatMap encLine
  parse bs := orIo ((decNat bs).bind fun n => (decMany decLine n.1 n.2).map (·.1))
  nameOk _ := True
  parse_print name m _ := by
    refine ⟨name, ?_⟩
    rw [decNat_enc, Option.bind_some]
    have := decMany_enc decLine_enc (writeObj byteText name m) []
    rw [List.append_nil] at this
    rw [this]
    rfl

/-! ### BMP files -/

/-- size and pixels -/
def sampleBmp : BmpCodec where
  encode _ w h px := .ok (le32 w ++ (le32 h ++ px))
  decode bs := .ok (ofLe32 (bs.take 4), ofLe32 ((bs.drop 4).take 4), bs.drop 8)
  fits _ _ := True
  decode_encode alpha w h px _ _ _ := by
    refine ⟨_, rfl, ?_⟩
    show (Except.ok (ofLe32 (le32 w), ofLe32 (le32 h), px) : Res _) = _
    rw [ofLe32_le32, ofLe32_le32]

/-- a file that begins with two bytes has that size -/
def sampleDims (_ : Str) : Bytes → Option (UInt32 × UInt32)
  | w :: h :: _ => some (UInt32.ofNat w.toNat, UInt32.ofNat h.toNat)
  | _ => none

def sampleExpand : ExpandEnv where
  J := sampleJsonText
  U := asciiUnicode
  sanitize s := s.filter (· ≠ '/')
  sanitize_plain s h := by simp at h
  ext s := if '.' ∈ s then some (lastDotPart s) else none
  dims := sampleDims
  toLzw := id
  fromLzw := .ok
  fromLzw_toLzw _ := rfl
  bmp := sampleBmp
  Z := plainZlib
  T := byteText
  obj := sampleObjText

/-! ### A table -/

/-- an image file, an image named alike, a bitmap of one pixel and a link -/
def expandImages : List ImageData :=
  [{ ImageData.sample with link := none, alpha_test_value := 0x3f000000 },
   { ImageData.sample with
     name := "PLAYFIELD é".toList, link := none, alpha_test_value := 0, width := 65, height := 76 },
   { ImageData.sample with
     name := "Bitmap".toList, path := "b.bmp".toList, link := none, alpha_test_value := 0, width := 1, height := 1,
     jpeg := none, bits := some (toLzwBlocks id [1, 2, 3, 254]) },
   { ImageData.sample with name := "ScreenShot".toList, link := some 1, alpha_test_value := 0, jpeg := none }]

/-- two frames of the mesh of the example -/
def expandFrames : List (List FrameVertex) :=
  [[⟨1, 2, 3, 4, 5, 6⟩, ⟨7, 8, 9, 10, 11, 12⟩], [⟨0, 0, 0, 0, 0, 0⟩, ⟨1, 1, 1, 1, 1, 1⟩]]

def expandPrimitive : Primitive :=
  { (samplePrimitive.setFrames plainZlib expandFrames) with name := "Prim".toList }

def expandItems : List GameItemEnum :=
  [.primitive expandPrimitive, .wall Wall.sample, .primitive { samplePrimitive with name := "PRIM".toList },
   .primitive { Primitive.default with name := "prim".toList }, .wall Wall.sample]

def expandMaterials : List Material :=
  [{ Material.sample with thickness := 0x3f000000 }, Material.default]

def expandTable : VPX where
  custominfotags := ["prop 1".toList]
  info := TableInfo.sample
  version := ⟨1080⟩
  gamedata := { GameData.sample with
    materials_old := (expandMaterials.mapM SaveMaterial.ofMaterial).toOption.getD []
    materials_physics_old := some (expandMaterials.map SavePhysicsMaterial.ofMaterial)
    materials_size := 2
    materials := some expandMaterials
    code := StringWithEncoding.ofBytes [0x4f, 0xe9, 0x0a]
    gameitems_size := 5
    images_size := 4
    sounds_size := 3
    fonts_size := 1
    collections_size := 2 }
  gameitems := expandItems
  images := expandImages
  sounds := [SoundData.sample, SoundData.sampleOgg, SoundData.sampleFloat]
  fonts := [FontData.sample]
  collections := [Collection.sample, Collection.init]

end Vpin
