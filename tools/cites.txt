Arith.lean
Arith|u|mesh/mod.rs#compute_normals
f32AsU32|u|wav.rs/as u32/ || mesh/mod.rs/as u32/
F32.val|s|
f32Signed|s|
fNaN|s|
ieeeAdd|u|mesh/mod.rs#compute_normals
ieeeMul|u|math/vec.rs#cross
ieeeDiv|u|math/vec.rs#normalize
isqrt|s|
ieeeSqrt|u|math/vec.rs#length
ieeeLt|u|mesh/walls.rs#triangulate_polygon
ieeeEq|u|mesh/walls.rs#triangulate_polygon
ieee|u|mesh/mod.rs#compute_normals
ieeeExact|u|mesh/mod.rs#compute_normals
Biff.lean
Tag|m|biff.rs#tag
ValidTag|u|biff.rs#new_tag
ENDB|m|biff.rs/b"ENDB"|"ENDB"/
R|m|biff.rs:38-508
R.panic|u|biff.rs#get_no_remaining_update
R.ofRes|u|biff.rs#get_u16_no_remaining_update
loop|u|biff.rs#next
Handlers|u|collection.rs/match tag_str/
anyTag|u|collection.rs/other => /
dispatch|u|collection.rs/match tag_str/
fld|u|collection.rs/reader.get_/
readWith|u|collection.rs/fn read/
readStruct|m|biff.rs/fn biff_read/
patch|u|biff.rs#end_tag
WOp|m|biff.rs:659-780
runOps|u|collection.rs/fn write/
writeBiff|u|mod.rs#write_gameitem
WOp.sizedR|u|biff.rs#write_tagged
WOp.unsizedR|u|biff.rs#write_tagged_without_size
opt|u|gameitem/select.rs#write_shared_attributes
BiffApi.lean
Build|u|biff.rs#sub_remaining
Build.add|u|biff.rs#get_no_remaining_update
Build.sub|u|biff.rs#sub_remaining
P|m|biff.rs:38-508
slice|u|biff.rs#get_no_remaining_update
advance|u|biff.rs#get_no_remaining_update
count|m|biff.rs#sub_remaining
peek|u|biff.rs#get_no_remaining_update
front|u|biff.rs#get_u16_no_remaining_update
textBytes|u|biff.rs#get_str
done|u|biff.rs#skip_tag
Scalar|m|biff.rs:97-306
Elem|m|biff.rs:97-306
Elem.get|m|biff.rs:97-306
Read|m|biff.rs:82-429
Out|m|biff.rs:82-429
Read.run|m|biff.rs:82-429
runReads|m|biff.rs:82-429
Read.Sized|m|biff.rs:82-429
runRecords|u|biff.rs#next
BiffPen.lean
WVal|m|biff.rs:569-657
Write.run|m|biff.rs:537-771
runWrites|m|biff.rs:528-795
BuiltinMesh.lean
putAt|u|mesh/builtin_primitive.rs/verts\[|vertices\[/
vertexAt|u|mesh/builtin_primitive.rs/verts\[|vertices\[/
Tri.face|m|obj.rs:725-730
Box|u|mesh/builtin_primitive.rs/min_x/
Bytes.lean
Bytes|u|biff.rs:22-29
Err|u|biff.rs#get_no_remaining_update
Res|u|biff.rs#get_no_remaining_update
F32|u|biff.rs#get_f32
F64|u|biff.rs#get_double
Str|u|biff.rs#get_string
byteAt|u|biff.rs#write_u32
le16|u|biff.rs#write_u16
le32|u|biff.rs#write_u32
le64|u|biff.rs#get_u64
leNat|u|biff.rs#get_u32_no_remaining_update
ofLe16|u|biff.rs#get_u16_no_remaining_update
ofLe32|u|biff.rs#get_u32_no_remaining_update
ofLe64|u|biff.rs#get_u64
Camera.lean
f32Camera|u|export/camera.rs/tan\(\)/
TableBounds.centerY|m|export/camera.rs/center_y/
ViewCamera.toGltf|m|export/gltf_export.rs/camera/
GltfEnv.withCameras|m|export/gltf_export.rs/camera/
Cfb.lean
asciiUpper|c|mod.rs#read_vpx
CfbLib|c|mod.rs#read_vpx
Path|c|mod.rs#read_bytes_at
Entry|c|mod.rs#read_bytes_at
Cfb|c|mod.rs#read_vpx
CfbLib.key|c|mod.rs#read_bytes_at
Cfb.get|c|mod.rs#read_bytes_at
Cfb.exists|u|mod.rs#read_custominfotags
Cfb.openStream|u|mod.rs#read_bytes_at
validName|c|mod.rs#create_game_storage
Cfb.add|c|mod.rs#create_game_storage
Cfb.createStorage|u|mod.rs#create_game_storage
Cfb.createNewStream|u|mod.rs#compact_cfb
Cfb.createStream|u|mod.rs#write_mac
Cfb.readStorage|u|tableinfo.rs#read_tableinfo
splitSlash|c|mod.rs#generate_mac
chainFrom|c|mod.rs#generate_mac
pathOf|c|mod.rs#generate_mac
joinPath|u|mod.rs#item_path
Cfb.existsAt|u|mod.rs#generate_mac
Cfb.openAt|u|mod.rs#read_bytes_at
Cfb.createAt|u|mod.rs#write_mac
Color.lean
hexDigit|u|color.rs:41-58
hexVal|u|color.rs:60-100
fromHex2|u|color.rs:60-100
charBoundary|u|color.rs:60-100
Color.toJ|m|color.rs:41-58
Color.ofJ|m|color.rs:60-100
Common.lean
wColor|m|color.rs#biff_write
getEnum|u|gameitem/ramp.rs/get_u32\(\)\.into/
wEnum|u|gameitem/ramp.rs/write_tagged_u32\("TYPE"/
Lens|u|gameitem/select.rs:14-40
Lens.modify|u|gameitem/select.rs#read_shared_attribute
Compact.lean
FileState|u|mod.rs#compact_cfb
Disk|u|mod.rs#compact_cfb
Disk.set|u|mod.rs#compact_cfb
fileStem|u|mod.rs#compact_cfb
withExtension|u|mod.rs#compact_cfb
copyAll|m|mod.rs#compact_cfb
Curve.lean
SplineOps|u|mesh/mod.rs/struct CatmullCurve/
instance@SplineOps|u|mesh/mod.rs/struct CatmullCurve/
Cubic|m|mesh/mod.rs/struct CatmullCurve/
Derived.lean
DerivedMesh|m|expanded/mod.rs#write_mesh_to_file
Expanded.lean
BmpCodec|u|expanded/images.rs/bmp/
ObjText|u|obj.rs#write_obj_to_writer
ExpandEnv|u|expanded/mod.rs#write_fs
FsStep|m|/filesystem.rs:7-33
runSteps|m|/filesystem.rs:7-33
jsonStep|u|expanded/metadata.rs#write_info
readOptional|u|expanded/materials.rs#read_materials
fileName|u|expanded/images.rs/format!\(/
anyTransparent|m|image.rs#has_transparent_pixels
trimJsonRev|u|expanded/primitives.rs/trim_end_matches/
trimJson|u|expanded/primitives.rs/trim_end_matches/
Task|u|expanded/gameitems.rs/par_iter|into_par/
ExpandedJson.lean
jCollection|m|jsonmodel.rs#collections_json
jStrMap|u|jsonmodel.rs:23-38
jVertex4D|m|gameitem/vertex4d.rs/struct Vertex4D/
jRenderProbe|m|renderprobe.rs/struct RenderProbeJson/
ImageDataJson.jsonFields|m|image.rs/struct ImageDataJson/
ImageDataJson.empty|m|image.rs/struct ImageDataJson/
jImage|m|image.rs/struct ImageDataJson/
lastDotPart|u|image.rs/split\('\.'\)/
ImageDataJson.isBmp|m|image.rs:308-324
ImageDataJson.isLink|m|image.rs:308-324
jOutputTarget|m|sound.rs/enum OutputTarget/
SoundDataJson.jsonFields|m|sound.rs/struct SoundDataJson/
jSound|m|sound.rs/struct SoundDataJson/
jFontData|m|font.rs/struct FontDataJson/
FileNames.lean
Unicode|u|expanded/gameitems.rs/is_alphanumeric/
FlipperMesh.lean
ItemFns|u|mesh/flippers/mod.rs/asin\(\)/
fBatBottom|m|mesh/flippers/mod.rs/0\.003753/
fBatTop|m|mesh/flippers/mod.rs/1\.004253/
BatShape|u|mesh/flippers/mod.rs/fn build_flipper_mesh/
fixedVertex|u|mesh/flippers/mod.rs/fn build_flipper_mesh/
clampOne|u|mesh/flippers/mod.rs/clamp\(-1\.0/
Float.lean
roundDiv|s|
roundBits|s|
f32OfFrac|s|
f64OfFrac|s|
F32.isNaN|s|
F32.isInf|s|
F32.isFinite|s|
F32.isNeg|s|
F32.mag|s|
F64.mag|s|
F32.abs|s|
f32One|s|
F32.ge0|s|
FloatText.lean
F32.neg|u|obj.rs#write_obj_to_writer
F64.isNaN|s|
F64.isInf|s|
F64.isNeg|s|
F32.toF64|u|obj.rs#flipped_v
F64.toF32|u|obj.rs#read_vertex
F64.oneMinus|u|obj.rs#flipped_v
FloatText|u|obj.rs#flipped_v
Folder.lean
FolderCall|m|mod.rs:318-597
Outcome|m|mod.rs:318-597
Course|m|mod.rs:318-597
openTable|m|mod.rs:358-371
writeFile|u|mod.rs:409-420
readText|u|mod.rs#importvbs
lockCourse|m|mod.rs:242-268
lockCall|m|mod.rs:242-268
Course.after|m|mod.rs:318-597
runFolder|m|mod.rs:318-597
FontData.lean
FontState.init|m|font.rs/fn read/
GameData.lean
gfld|u|gamedata.rs/previous_tag = /
gfldS|u|gamedata.rs/previous_tag = /
GameItemJson.lean
tagText|u|gameitem/generic.rs/struct Generic/
tagOfText|u|gameitem/generic.rs/struct Generic/
jGeneric|m|gameitem/generic.rs/struct Generic/
genericOfJ|m|gameitem.rs/Generic\(/
GameItemInfo.jsonFields|m|expanded/gameitems.rs/struct GameItemInfoJson/
jGameItemInfo|m|expanded/gameitems.rs/struct GameItemInfoJson/
writeJson|u|expanded/gameitems.rs/to_vec_pretty|to_writer_pretty/
jGameItem|m|gameitem.rs/impl Serialize for GameItemEnum|enum GameItemEnum/
Gltf.lean
nanZero|u|/gltf.rs#build_gltf_payload || gltf.rs#build_gltf_payload
gltfAccessor|m|gltf.rs#build_gltf_payload
gltfView|m|gltf.rs#build_gltf_payload
asciiBytes|u|gltf.rs#write_glb_payload
len32|u|gltf.rs#write_glb_payload
readExact|u|gltf.rs#read_glb_payload_from_reader
readU32|u|gltf.rs#read_glb_payload_from_reader
sliceExact|u|gltf.rs#parse_gltf_payload
ensure|u|gltf.rs#read_glb_payload_from_reader
orIo|u|gltf.rs#parse_gltf_payload
unwrap|u|gltf.rs#parse_gltf_payload
GltfCollect.lean
Rgba|u|export/gltf_export.rs:374-383
GltfStock|u|export/gltf_export.rs#collect_meshes
GltfEnv|u|export/gltf_export.rs#export_gltf
gltfPoint|u|export/gltf_export.rs#collect_meshes
Collected|u|export/gltf_export.rs#collect_meshes
Collected.none|u|export/gltf_export.rs#collect_meshes
partMesh|u|export/gltf_export.rs#collect_meshes
f32OfInt32|u|export/gltf_export.rs/as f32/
colorTint|u|export/gltf_export.rs/as f32 \/ 255/
mapInsert|u|export/gltf_export.rs#collect_materials
mapGet|u|export/gltf_export.rs#collect_materials
GltfDoc.lean
*|u|export/gltf_export.rs#build_combined_gltf_payload
fClamp|u|export/gltf_export.rs/clamp\(/
GltfMaterial.blends|m|export/gltf_export.rs/0\.999/
TextureState|m|export/gltf_export.rs#build_combined_gltf_payload
linearSampler|m|export/gltf_export.rs:671-679
MaterialState|m|export/gltf_export.rs/mesh_material_map/
Placement|m|export/gltf_export.rs/item_group_children/
pushTo|u|export/gltf_export.rs/or_default\(\)/
setExtras|u|export/gltf_export.rs/\["extras"\] =/
Handle.lean
OnFile|m|mod.rs:186-316
Reply|m|mod.rs:186-316
Reply.of|m|mod.rs:186-316
runHandle|m|mod.rs:186-316
Hex.lean
hexEncode|u|obj.rs#obj_vpx_comment
hexDecode|u|obj.rs#obj_parse_vpx_comment
Image.lean
JpegState.init|m|image.rs/ImageDataJpeg \{/
altvBytes|m|image.rs/ALTV/
ItemMesh.lean
orNone|u|export/obj_export.rs#write_gameitem
itemStock|u|export/obj_export.rs#write_gameitem
Json.lean
Key|u|jsonmodel.rs:11-38
J|u|jsonmodel.rs#info_to_json
J.Valid|u|jsonmodel.rs#info_to_json
JsonText|u|expanded/metadata.rs#write_info
J.at|u|gltf.rs#parse_gltf_payload
J.idx|u|gltf.rs#parse_gltf_payload
J.asArr?|u|gltf.rs#parse_gltf_payload
J.asStr?|u|gltf.rs#parse_gltf_payload
J.asU64?|u|gltf.rs#parse_gltf_payload
JsonCodec.lean
*|d|gameitem/wall.rs/derive\(Serialize|struct WallJson/
Codec|d|gameitem/wall.rs/impl Serialize for Wall/
jColor|m|color.rs:41-100
f32OfInt|d|gameitem/wall.rs/struct WallJson/
FontStyles.toJ|m|gameitem/font.rs/enum FontStyle/
fontStyleOfJ|m|gameitem/font.rs/enum FontStyle/
FontStyles.ofNames|m|gameitem/font.rs/enum FontStyle/
FontStyles.ofJ|m|gameitem/font.rs/enum FontStyle/
jFontStyles|m|gameitem/font.rs/enum FontStyle/
Material.lean
BM|u|material.rs:266-306
bmTake|u|material.rs#read_padded_cstring
bmU32|u|material.rs:266-306
bmU8|u|material.rs:266-306
f32Clamp|u|material.rs:154-213
Matrix.lean
fRadsPerDeg|u|math/matrix.rs/to_radians|rotate_/
instance@Matrix|u|math/matrix.rs/impl/
Row4|m|math/matrix.rs/m: \[\[f32; 4\]; 4\]/
MemFs.lean
Files|m|/filesystem.rs:65-68
Files.get|u|/filesystem.rs#get_file
Files.insert|u|/filesystem.rs:163-168
Files.remove|u|/filesystem.rs#delete_file
MemFs|m|/filesystem.rs:65-68,144-148
FsOp|m|/filesystem.rs:116-232
MemFs.empty|m|/filesystem.rs:116-121
MemFs.writer|u|/filesystem.rs:144-168
MemFs.dropWriter|m|/filesystem.rs:163-168
MemFs.run|m|/filesystem.rs:116-232
Mesh.lean
Zlib|u|gameitem/primitive.rs#compress_mesh_data
f32At|u|model.rs#from_vpx_bytes
MeshNumbers.lean
Numbers|u|mesh/walls.rs#build_wall_meshes || mesh/walls.rs#triangulate_polygon
instance@Numbers|u|mesh/walls.rs#triangulate_polygon
V2|u|math/vec.rs/struct Vec2/
MeshPack.lean
unpackVertex|u|mesh/bumpers/mod.rs#generate_base_mesh
unpackTri|u|mesh/bumpers/mod.rs#generate_base_mesh
unpackTable|u|mesh/bumpers/mod.rs#generate_base_mesh
Obj.lean
ObjLine|u|obj.rs#write_obj_to_writer
joinSpace|u|obj.rs#obj_vpx_comment
hexCharVal|u|obj.rs#obj_parse_vpx_comment
hexDigits|u|obj.rs#obj_parse_vpx_comment
parseHexByte|u|obj.rs#obj_parse_vpx_comment
splitSpaces|u|obj.rs#obj_parse_vpx_comment
parseHexAll|u|obj.rs#obj_parse_vpx_comment
corner|u|obj.rs#read_face
number|u|obj.rs:515-612
ObjReader.lines|u|obj.rs:515-612
Corner|m|obj.rs#read_face
neighbours|u|obj.rs#triangulate_and_dedup
getOrPanic|u|obj.rs#read_obj_from_reader_with_options
ObjExport.lean
SceneLine|u|export/obj_export.rs#write_block
MtlLine|u|export/obj_export.rs#write_mtl_block
RawMesh|u|export/obj_export.rs:1257-1265
Stock|u|export/obj_export.rs#write_gameitem
GenMesh.raw|u|export/obj_export.rs#write_block
nonEmpty|u|export/obj_export.rs#write_block
colorPart|m|export/obj_export.rs#color_to_kd
noMove|u|export/obj_export.rs:1257-1265
partBlock|u|export/obj_export.rs#write_bumper
asU32|u|export/obj_export.rs#write_block
checkedU32|u|export/obj_export.rs#write_block
imagePath|u|export/obj_export.rs#ensure_image_written
ObjExport|m|export/obj_export.rs#export_obj
Outline.lean
Outline|u|mesh/walls.rs#triangulate_polygon
instance@Outline|u|mesh/walls.rs#triangulate_polygon
pairEq|u|mesh/walls.rs#advance_point
Pixels.lean
fromBlocksAll|m|lzw.rs#from_lzw_blocks
PlungerMesh.lean
cross|m|math/vec.rs#cross
V3.over|m|math/vec.rs/impl.*Div/ || mesh/plungers/mod.rs#generate_spring_mesh
isWhite|u|mesh/plungers/mod.rs#parse_tip_shape
splitAtChar|u|mesh/plungers/mod.rs#parse_tip_shape
beginWord|u|mesh/plungers/mod.rs#parse_tip_shape
splitWhite|u|mesh/plungers/mod.rs#parse_tip_shape
insertPoint|u|mesh/plungers/mod.rs#parse_tip_shape
sortPoints|u|mesh/plungers/mod.rs#parse_tip_shape
face16|u|mesh/plungers/mod.rs#connect_rings
f32AsUsize|u|mesh/plungers/mod.rs/as usize/
springPlan|m|mesh/plungers/mod.rs#generate_spring_mesh
HelixPoint|m|mesh/plungers/mod.rs#generate_spring_mesh
Polygon.lean
pairEq|u|mesh/walls.rs#advance_point
RenderVertex2D.xy|u|mesh/mod.rs#polygon_to_triangles
Quantize.lean
u32ToF32|u|math/quantize.rs/as f32/
f32MinPos|u|math/quantize.rs/min\(/
f32Scale|u|math/quantize.rs#quantize_unsigned
f32ToU32|u|math/quantize.rs#quantize_unsigned
RampMesh.lean
RampOutline|m|mesh/ramps.rs#get_ramp_vertex
RampPoint|m|mesh/ramps.rs#get_ramp_vertex
stripMesh|m|mesh/ramps.rs/fn build_ramp_mesh|fn build_flat/
Sound.lean
unixExt|u|sound.rs/extension\(\)/
asciiLower|u|sound.rs/eq_ignore_ascii_case/
eqIgnoreAsciiCase|u|sound.rs/eq_ignore_ascii_case/
TableInfo.lean
infoStg|m|tableinfo.rs/TableInfo/
writeKnown|m|tableinfo.rs#write_tableinfo
insertProp|u|tableinfo.rs#read_tableinfo
TableJson.lean
jArray|u|material.rs:99-153
SavePhysicsMaterial.jsonBase|m|material.rs:362-389
jSavePhysicsMaterial|m|material.rs:362-389
SaveMaterial.jsonBase|m|material.rs:216-264
jSaveMaterial|m|material.rs:216-264
Material.jsonBase|m|material.rs:535-602
jMaterial|m|material.rs:535-602
GameData.jsonFields1|m|gamedata.rs/struct GameDataJson/
GameData.jsonFields2|m|gamedata.rs/struct GameDataJson/
GameData.jsonFields3|m|gamedata.rs/struct GameDataJson/
GameData.jsonFields4|m|gamedata.rs/struct GameDataJson/
GameData.jsonFields5|m|gamedata.rs/struct GameDataJson/
GameData.jsonFields|m|gamedata.rs/struct GameDataJson/
jGameData|m|gamedata.rs/struct GameDataJson/
PlungerMesh.lean
f24|m|mesh/plungers/mod.rs:560
TableMesh.lean
fm0p18|m|mesh/kickers/mod.rs:151
fm23|m|mesh/triggers/mod.rs:80
MeshTable|m|mesh/bumpers/mod.rs/_MESH|mod bumper/
V3.times|u|mesh/bumpers/mod.rs#generate_base_mesh
V3.raise|u|mesh/bumpers/mod.rs#generate_base_mesh
turnedNormal|u|mesh/bumpers/mod.rs#generate_base_mesh
Vertex.pos|u|mesh/bumpers/mod.rs#generate_base_mesh
Vertex.normal|u|mesh/bumpers/mod.rs#generate_base_mesh
MeshTable.mesh|u|mesh/bumpers/mod.rs#generate_base_mesh
MeshTables|u|mesh/bumpers/mod.rs/use /
Text.lean
decodeLatin1|u|biff.rs#get_str_with_encoding_no_remaining_update
latin1Byte|u|biff.rs#write_string_with_encoding
utf16Units|u|biff.rs#write_wide_string
encodeUtf16|u|biff.rs#write_wide_string
fromUtf16|u|biff.rs#get_wide_string
utf8Bytes|u|biff.rs#write_string
encodeUtf8|u|biff.rs#write_string_with_encoding
isCont|u|biff.rs#get_str_with_encoding_no_remaining_update
utf8Head|u|biff.rs#get_str_with_encoding_no_remaining_update
decodeUtf8F|u|biff.rs#get_str_with_encoding_no_remaining_update
decodeUtf8|u|biff.rs#get_str_with_encoding_no_remaining_update
StringEncoding|m|gamedata.rs/enum StringEncoding/ || stringwithencoding.rs/enum StringEncoding/ || model.rs/enum StringEncoding/
StringWithEncoding|m|stringwithencoding.rs/struct StringWithEncoding/ || model.rs/struct StringWithEncoding/
Version.lean
digitVal|u|version.rs#parse
parseDigits|u|version.rs#parse
parseU32|u|version.rs#parse
decimalF|u|version.rs#to_u32_string
decimal|u|version.rs#to_u32_string
Vpx.lean
Env|u|mod.rs#generate_mac
gameStg|m|mod.rs#create_game_storage
gamePath|u|mod.rs#write_game_data
itemPath|u|mod.rs#write_gameitem
custNames|u|mod.rs#generate_mac
bytesIfAt|u|mod.rs#generate_mac
concatM|u|mod.rs#generate_mac
hashCustom|u|mod.rs#generate_mac
hashBiffIf|u|mod.rs#generate_mac
refreshMac|u|mod.rs:220-230
GameData.lockCount|m|mod.rs:232-240
WallMesh.lean
GenMesh|u|mesh/walls.rs#build_wall_meshes || mesh/walls.rs:1-60
Wasm.lean
chunks2|u|/wasm.rs#mesh_to_obj
chunks3|u|/wasm.rs#mesh_to_obj
Wav.lean
riffId|m|wav.rs/RIFF/
waveId|m|wav.rs/WAVE/
fmtId|m|wav.rs/b"fmt "/
dataId|m|wav.rs/b"data"/
wvFail|m|wav.rs#invalid_data
padded|u|wav.rs/next_multiple_of/
Webp.lean
PictureLib|u|mod.rs:1009-1087
Converted|u|mod.rs:1009-1087
Biff.lean
instance@ValidTag|u|biff.rs#new_tag
