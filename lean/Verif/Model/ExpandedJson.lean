import Verif.Model.TableJson
import Verif.Model.TableInfo
import Verif.Model.Collection
import Verif.Model.RenderProbe
import Verif.Model.Image
import Verif.Model.FontData
/-
The JSON forms in an expanded table that are not those of items, materials and game data:
/repo/src/vpx/jsonmodel.rs, and the `...Json` structures of /repo/src/vpx/image.rs, sound.rs, font.rs and
renderprobe.rs.
-/
namespace Vpin

/-! ### Collections -/

/-- `CollectionJson`, /repo/src/vpx/jsonmodel.rs:10-17, with `collections_json` (88-101) and `json_to_collections`
(103-116) -/
def Collection.jsonFields : List (JField Collection) :=
  [.req [key!"name"] jStr (·.name) fun v s => { s with name := v },
   .req [key!"items"] (jVec jStr) (·.items) fun v s => { s with items := v },
   .req [key!"fire_events"] jBool (·.fire_events) fun v s => { s with fire_events := v },
   .req [key!"stop_single_events"] jBool (·.stop_single_events) fun v s => { s with stop_single_events := v },
   .req [key!"group_elements"] jBool (·.group_elements) fun v s => { s with group_elements := v }]

/-- `Serialize` and `Deserialize` of `Collection`, /repo/src/vpx/jsonmodel.rs:87-100 -/
def jCollection : Codec Collection := jStruct Collection.jsonFields Collection.init

/-! ### Table info -/

/-- `HashMap<String, String>`; read by inserting one member after the other (used in /repo/src/vpx/jsonmodel.rs:23-38) -/
def jStrMap : Codec (List (Str × Str)) where
  toJ l := .map (l.map fun e => (e.1, .str e.2))
  ofJ | .map l => l.foldlM (fun acc e => (fun v => insertProp e.1 v acc) <$> jStr.ofJ e.2) []
      | _ => .error .io

/-- `TableInfoJson`, /repo/src/vpx/jsonmodel.rs:22-38: the info without the screenshot, and the order of the tags -/
def infoJsonFields : List (JField (TableInfo × CustomInfoTags)) :=
  [.opt [key!"table_name"] jStr (·.1.table_name) fun v s => ({ s.1 with table_name := v }, s.2),
   .opt [key!"author_name"] jStr (·.1.author_name) fun v s => ({ s.1 with author_name := v }, s.2),
   .opt [key!"table_blurb"] jStr (·.1.table_blurb) fun v s => ({ s.1 with table_blurb := v }, s.2),
   .opt [key!"table_rules"] jStr (·.1.table_rules) fun v s => ({ s.1 with table_rules := v }, s.2),
   .opt [key!"author_email"] jStr (·.1.author_email) fun v s => ({ s.1 with author_email := v }, s.2),
   .opt [key!"release_date"] jStr (·.1.release_date) fun v s => ({ s.1 with release_date := v }, s.2),
   .opt [key!"table_save_rev"] jStr (·.1.table_save_rev) fun v s => ({ s.1 with table_save_rev := v }, s.2),
   .opt [key!"table_version"] jStr (·.1.table_version) fun v s => ({ s.1 with table_version := v }, s.2),
   .opt [key!"author_website"] jStr (·.1.author_website) fun v s => ({ s.1 with author_website := v }, s.2),
   .opt [key!"table_save_date"] jStr (·.1.table_save_date) fun v s => ({ s.1 with table_save_date := v }, s.2),
   .opt [key!"table_description"] jStr (·.1.table_description) fun v s => ({ s.1 with table_description := v }, s.2),
   .req [key!"properties"] jStrMap (·.1.properties) fun v s => ({ s.1 with properties := v }, s.2),
   .req [key!"properties_order"] (jVec jStr) (·.2) fun v s => (s.1, v)]

/-- `info_to_json` and `json_to_info` with a screenshot, /repo/src/vpx/jsonmodel.rs:40-86 -/
def jInfo (screenshot : Option Bytes) : Codec (TableInfo × CustomInfoTags) :=
  jStruct infoJsonFields ({ TableInfo.new with screenshot := screenshot }, [])

/-! ### Render probes -/

/-- `Vertex4D`, /repo/src/vpx/gameitem/vertex4d.rs:4-11 -/
def Vertex4D.jsonFields : List (JField Vertex4D) :=
  [.req [key!"x"] jF32 (·.x) fun v s => { s with x := v },
   .req [key!"y"] jF32 (·.y) fun v s => { s with y := v },
   .req [key!"z"] jF32 (·.z) fun v s => { s with z := v },
   .req [key!"w"] jF32 (·.w) fun v s => { s with w := v }]

/-- `Serialize` and `Deserialize` of `Vertex4D`, /repo/src/vpx/gameitem/vertex4d.rs:6-11 -/
def jVertex4D : Codec Vertex4D := jStruct Vertex4D.jsonFields ⟨0, 0, 0, 0⟩

/-- `RenderProbeJson`, /repo/src/vpx/renderprobe.rs:253-303, with `from_renderprobe` and `to_renderprobe` -/
def RenderProbeWithGarbage.jsonFields : List (JField RenderProbeWithGarbage) :=
  [.req [key!"type", key!"type_"] ⟨RenderProbeType.toJ, RenderProbeType.ofJ⟩ (·.render_probe.type_)
     fun v s => { s with render_probe := { s.render_probe with type_ := v } },
   .req [key!"name"] jStr (·.render_probe.name)
     fun v s => { s with render_probe := { s.render_probe with name := v } },
   .req [key!"roughness"] jU32 (·.render_probe.roughness)
     fun v s => { s with render_probe := { s.render_probe with roughness := v } },
   .optSkip [key!"roughness_clear"] jU32 (·.render_probe.roughness_clear)
     fun v s => { s with render_probe := { s.render_probe with roughness_clear := v } },
   .req [key!"reflection_plane"] jVertex4D (·.render_probe.reflection_plane)
     fun v s => { s with render_probe := { s.render_probe with reflection_plane := v } },
   .req [key!"reflection_mode"] ⟨ReflectionMode.toJ, ReflectionMode.ofJ⟩ (·.render_probe.reflection_mode)
     fun v s => { s with render_probe := { s.render_probe with reflection_mode := v } },
   .optSkip [key!"disable_light_reflection"] jBool (·.render_probe.disable_light_reflection)
     fun v s => { s with render_probe := { s.render_probe with disable_light_reflection := v } },
   .optSkip [key!"trailing_data"] (jVec jU8)
     (fun s => if s.trailing_data = [] then none else some s.trailing_data)
     fun v s => { s with trailing_data := v.getD [] }]

/-- `Serialize` and `Deserialize` of `RenderProbe`, /repo/src/vpx/renderprobe.rs:254-267 -/
def jRenderProbe : Codec RenderProbeWithGarbage :=
  jStruct RenderProbeWithGarbage.jsonFields ⟨RenderProbe.default, []⟩

/-! ### Images -/

/-- `ImageDataJson`, /repo/src/vpx/image.rs:184-217 -/
structure ImageDataJson where
  name : Str
  internal_name : Option Str
  path : Str
  width : Option UInt32
  height : Option UInt32
  link : Option UInt32
  alpha_test_value : Option F32
  is_opaque : Option Bool
  is_signed : Option Bool
  jpeg_name : Option Str
  jpeg_internal_name : Option Str
  jpeg_path : Option Str
  name_dedup : Option Str
  md5_hash : Option Str
  deriving DecidableEq, Repr

/-- the fields, /repo/src/vpx/image.rs:184-216 -/
def ImageDataJson.jsonFields : List (JField ImageDataJson) :=
  [.req [key!"name"] jStr (·.name) fun v s => { s with name := v },
   .optSkip [key!"internal_name"] jStr (·.internal_name) fun v s => { s with internal_name := v },
   .req [key!"path"] jStr (·.path) fun v s => { s with path := v },
   .optSkip [key!"width"] jU32 (·.width) fun v s => { s with width := v },
   .optSkip [key!"height"] jU32 (·.height) fun v s => { s with height := v },
   .optSkip [key!"link"] jU32 (·.link) fun v s => { s with link := v },
   .optSkip [key!"alpha_test_value"] jF32 (·.alpha_test_value) fun v s => { s with alpha_test_value := v },
   .optSkip [key!"is_opaque"] jBool (·.is_opaque) fun v s => { s with is_opaque := v },
   .optSkip [key!"is_signed"] jBool (·.is_signed) fun v s => { s with is_signed := v },
   .optSkip [key!"jpeg_name"] jStr (·.jpeg_name) fun v s => { s with jpeg_name := v },
   .optSkip [key!"jpeg_internal_name"] jStr (·.jpeg_internal_name) fun v s => { s with jpeg_internal_name := v },
   .optSkip [key!"jpeg_path"] jStr (·.jpeg_path) fun v s => { s with jpeg_path := v },
   .optSkip [key!"name_dedup"] jStr (·.name_dedup) fun v s => { s with name_dedup := v },
   .optSkip [key!"md5_hash"] jStr (·.md5_hash) fun v s => { s with md5_hash := v }]

/-- no values, /repo/src/vpx/image.rs:184-216 -/
def ImageDataJson.empty : ImageDataJson :=
  ⟨[], none, [], none, none, none, none, none, none, none, none, none, none, none⟩

/-- `Serialize` and `Deserialize` of `Image`, /repo/src/vpx/image.rs:184-216 -/
def jImage : Codec ImageDataJson := jStruct ImageDataJson.jsonFields ImageDataJson.empty

/-- `ALPHA_TEST_VALUE_DEFAULT`, /repo/src/vpx/image.rs:156: -1.0. It is the only `f32` equal to -1.0. -/
def alphaTestDefault : F32 := 0xbf800000

/-- `path.split('.').next_back()`: what is behind the last dot, or everything (used in /repo/src/vpx/image.rs:176) -/
def lastDotPart (path : Str) : Str := (path.reverse.takeWhile (· ≠ '.')).reverse

/-- `ImageData::ext`, /repo/src/vpx/image.rs:176-182 -/
def ImageData.ext (s : ImageData) : Str := lastDotPart s.path

/-- `ImageData::is_link`, /repo/src/vpx/image.rs:172-174 -/
def ImageData.isLink (s : ImageData) : Bool := s.link == some 1

/-- `ImageDataJson::ext`, `is_bmp` and `is_link`, /repo/src/vpx/image.rs:308-324 -/
def ImageDataJson.ext (s : ImageDataJson) : Str := lastDotPart s.path
/-- `isBmp`, /repo/src/vpx/image.rs:308-324 -/
def ImageDataJson.isBmp (s : ImageDataJson) : Bool := eqIgnoreAsciiCase s.ext "bmp".toList
/-- `isLink`, /repo/src/vpx/image.rs:308-324 -/
def ImageDataJson.isLink (s : ImageDataJson) : Bool := s.link == some 1

/-- `ImageDataJson::from_image_data`, /repo/src/vpx/image.rs:220-264 -/
def ImageDataJson.ofImage (s : ImageData) : ImageDataJson where
  name := s.name
  internal_name := s.internal_name
  path := s.path
  width := none
  height := none
  link := s.link
  alpha_test_value := if s.alpha_test_value = alphaTestDefault then none else some s.alpha_test_value
  is_opaque := s.is_opaque
  is_signed := s.is_signed
  jpeg_name := s.jpeg.bind fun j => if j.name = s.name then none else some j.name
  jpeg_internal_name := s.jpeg.bind (·.internal_name)
  jpeg_path := s.jpeg.bind fun j => if j.path = s.path then none else some j.path
  name_dedup := none
  md5_hash := s.md5_hash.map hexEncode

/-- the hash of an image: a text that is not 32 hexadecimal digits is no hash, /repo/src/vpx/image.rs:281-290 -/
def md5OfText (t : Str) : Option Bytes :=
  match hexDecode t with
  | none => none
  | some bs => if bs.length = 16 then some bs else none

/-- `ImageDataJson::to_image_data`, /repo/src/vpx/image.rs:266-306 -/
def ImageDataJson.toImage (s : ImageDataJson) (width height : UInt32) (bits : Option Bytes) : ImageData where
  name := s.name
  internal_name := s.internal_name
  path := s.path
  width := width
  height := height
  link := s.link
  alpha_test_value := s.alpha_test_value.getD alphaTestDefault
  is_opaque := s.is_opaque
  is_signed := s.is_signed
  jpeg := if !s.isBmp && !s.isLink then
      some { path := s.jpeg_path.getD s.path
             name := s.jpeg_name.getD s.name
             internal_name := s.jpeg_internal_name
             data := [] }
    else none
  bits := bits
  md5_hash := s.md5_hash.bind md5OfText

/-! ### Sounds -/

/-- `Serialize for OutputTarget`, /repo/src/vpx/sound.rs:42-53 -/
def OutputTarget.toJ : OutputTarget → J
  | .Table => .str "table".toList
  | .Backglass => .str "backglass".toList

/-- `Deserialize for OutputTarget`, /repo/src/vpx/sound.rs:57-88; a number that is not an unsigned integer is a
panic (`as_u64().unwrap()`) -/
def OutputTarget.ofJ : J → Res OutputTarget
  | .str s => if s = "table".toList then .ok .Table else if s = "backglass".toList then .ok .Backglass else .error .io
  | .num n => if n < 0 then .error .panic else if n = 0 then .ok .Table else if n = 1 then .ok .Backglass else .error .io
  | .f32 _ => .error .panic
  | _ => .error .io

/-- `Serialize` and `Deserialize` of `OutputTarget`, /repo/src/vpx/sound.rs:17-20 -/
def jOutputTarget : Codec OutputTarget := ⟨OutputTarget.toJ, OutputTarget.ofJ⟩

/-- `SoundDataJson`, /repo/src/vpx/sound.rs:122-139 -/
structure SoundDataJson where
  name : Str
  path : Str
  internal_name : Str
  fade : UInt32
  volume : UInt32
  balance : UInt32
  output_target : OutputTarget
  name_dedup : Option Str
  deriving DecidableEq, Repr

/-- the fields, /repo/src/vpx/sound.rs:125-140 -/
def SoundDataJson.jsonFields : List (JField SoundDataJson) :=
  [.req [key!"name"] jStr (·.name) fun v s => { s with name := v },
   .req [key!"path"] jStr (·.path) fun v s => { s with path := v },
   .default [key!"internal_name"] jStr [] (·.internal_name) fun v s => { s with internal_name := v },
   .req [key!"fade"] jU32 (·.fade) fun v s => { s with fade := v },
   .req [key!"volume"] jU32 (·.volume) fun v s => { s with volume := v },
   .req [key!"balance"] jU32 (·.balance) fun v s => { s with balance := v },
   .req [key!"output_target"] jOutputTarget (·.output_target) fun v s => { s with output_target := v },
   .optSkip [key!"name_dedup"] jStr (·.name_dedup) fun v s => { s with name_dedup := v }]

/-- `Serialize` and `Deserialize` of `Sound`, /repo/src/vpx/sound.rs:125-140 -/
def jSound : Codec SoundDataJson := jStruct SoundDataJson.jsonFields ⟨[], [], [], 0, 0, 0, .Table, none⟩

/-- `SoundDataJson::from_sound_data`, /repo/src/vpx/sound.rs:142-153 -/
def SoundDataJson.ofSound (s : SoundData) : SoundDataJson :=
  ⟨s.name, s.path, s.internal_name, s.fade, s.volume, s.balance, s.output_target, none⟩

/-- `SoundDataJson::to_sound_data`, /repo/src/vpx/sound.rs:154-170 -/
def SoundDataJson.toSound (s : SoundDataJson) : SoundData :=
  ⟨s.name, s.path, WaveForm.default, [], s.internal_name, s.fade, s.volume, s.balance, s.output_target⟩

/-! ### Fonts -/

/-- `FontDataJson`, /repo/src/vpx/font.rs:15-35, with `from_font_data` and `to_font_data` -/
def FontData.jsonFields : List (JField FontData) :=
  [.req [key!"name"] jStr (·.name) fun v s => { s with name := v },
   .req [key!"path"] jStr (·.path) fun v s => { s with path := v }]

/-- `Serialize` and `Deserialize` of `FontData`, /repo/src/vpx/font.rs:16-19 -/
def jFontData : Codec FontData := jStruct FontData.jsonFields ⟨[], [], []⟩

/-- `FontData::ext`, /repo/src/vpx/font.rs:48-56 -/
def FontData.ext (s : FontData) : Str := lastDotPart s.path

end Vpin
