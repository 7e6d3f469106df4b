import json
P=[]
def p(title, statement, quant, why, anchors):
    P.append(dict(id="C%02d"%(len(P)+1), title=title, statement=statement, quantifier=quant, why_tests_cant=why, anchors=anchors))
V="src/vpx/"
p("Tagged record framing round-trips",
  "Whatever sequence of tagged records is written through the BIFF writer and closed, the produced bytes are exactly the concatenation of records whose 4-byte little-endian length field equals 4 plus the payload length; reading them back with the BIFF reader yields the same (tag, payload) sequence in the same order and reports the end exactly after the last one.",
  "all finite sequences of (tag of 1..4 non-NUL bytes other than ENDB, payload of any length below 2^32-4)",
  "The number and sizes of records are unbounded; framing bugs (off by 4, missed patch of the length placeholder) depend on combinations of adjacent records.",
  [V+"biff.rs BiffReader::next, get_record_data, skip_tag; BiffWriter::new_tag, end_tag, close"])
p("Primitive fields survive writing and reading",
  "Every bool, u8, u16, u32, i32, f32 (bit pattern, including NaN payloads, infinities and signed zero), f64, u64, 2/3/4-component vector written into a record reads back as the identical value, consuming exactly the record.",
  "all values of each primitive type, any bytes following the record",
  "2^32 and more values per field, and any continuation of the stream.",
  [V+"biff.rs get_bool/get_u32/get_f32/... and write_*", V+"gameitem/vertex2d.rs", V+"gameitem/vertex3d.rs", V+"gameitem/vertex4d.rs"])
p("Latin-1 text fields: what survives and what does not",
  "A text field (names, image names, paths, layer names) reads back identical exactly when it contains only characters up to U+00FF and no NUL; with a NUL the text is cut at the first NUL; with a character above U+00FF writing fails or is lossy.",
  "all strings of Unicode scalar values",
  "Strings are unbounded and the failure set is a property of every character position.",
  [V+"biff.rs get_string, get_str, write_string"])
p("Wide text fields survive for every Unicode string",
  "Names stored as UTF-16 (item names, collection names and members, table name, table info texts) read back identical for every string, including NUL and characters outside the BMP; invalid UTF-16 (odd byte count or unpaired surrogate) is rejected.",
  "all strings of Unicode scalar values; all byte sequences for rejection",
  "All strings and all byte sequences.",
  [V+"utf16.rs encode_utf16le, decode_utf16le", V+"biff.rs get_wide_string, write_wide_string"])
p("Script bytes are preserved whatever their encoding",
  "Reading a script and writing it back reproduces the same bytes whether or not they are valid UTF-8, provided they contain no NUL; setting a script text and reading it back yields that text.",
  "all byte sequences without NUL; all NUL-free strings",
  "UTF-8 validity is a property of every prefix; old Latin-1 scripts exercise arbitrary byte mixes.",
  [V+"model.rs StringWithEncoding", V+"biff.rs get_str_with_encoding_no_remaining_update, write_tagged_string_with_encoding_no_size", V+"gamedata.rs set_code"])
p("Readers skip records they do not know",
  "Inserting records with tags a reader does not know, with any payload, anywhere before the end marker of a game item, game data, collection, material or any other tagged structure does not change what is read from the known records (forward compatibility).",
  "all record streams, all positions, all unknown tags, all payloads",
  "Any number of unknown records at any positions.",
  [V+"biff.rs skip_tag", V+"gameitem/*.rs biff_read default arms", V+"gamedata.rs read_all_gamedata_records"])
p("Reading always terminates",
  "Reading any byte sequence as a tagged structure terminates with either a value or an error: every iteration of the record loop consumes at least 8 bytes of input, so at most len/8 records are visited.",
  "all byte sequences, including truncated and malicious ones",
  "Non-termination on crafted inputs cannot be excluded by examples.",
  [V+"biff.rs BiffReader::next", V+"gameitem/*.rs biff_read loops"])
p("Drag points round-trip",
  "A list of drag points of any length written inside a wall, ramp, rubber, light, trigger or flasher reads back as the same list in the same order.",
  "all lists of drag points (names NUL-free Latin-1)",
  "Nested sub-streams with their own end markers; unbounded counts.",
  [V+"gameitem/dragpoint.rs BiffRead, BiffWrite, WriteDragPoints"])
p("Every kind of game item round-trips through the table file",
  "For each of the item kinds (wall, flipper, timer, plunger, text box, bumper, trigger, light, kicker, decal, gate, spinner, ramp, reel, light sequencer, primitive, flasher, rubber, hit target, ball, part group) writing an item and reading it back yields an equal item, under explicit conditions on its texts and optional parts.",
  "all items of every kind with representable texts",
  "Each kind has dozens of fields with optional parts: the combinations (2^n optional patterns) cannot be enumerated, and one swapped tag corrupts users' tables silently.",
  [V+"gameitem/*.rs BiffRead/BiffWrite", V+"gameitem.rs read, BiffWrite for GameItemEnum"])
p("Item kind is decided by the stored type number",
  "An item written as kind K is read back as kind K: the type number written for each kind is the number the reader dispatches to the same kind; unknown numbers become generic items with that number.",
  "all item kinds and all 32-bit type numbers",
  "The type number ranges over 2^32 values.",
  [V+"gameitem.rs read, write_with_type, ITEM_TYPE_*"])
p("Lossy fields are lossy only once",
  "For every item that can be read, writing it, reading it and writing it again gives the same bytes as the first write, so repeated save cycles do not drift.",
  "all items, any number of save/load cycles",
  "Any number of iterations over any item.",
  [V+"gameitem/*.rs BiffRead/BiffWrite", V+"math/quantize.rs"])
p("Game data round-trips",
  "The table-wide settings written to the GameData stream read back equal, under explicit conditions (material counts consistent, texts representable, fullscreen-stereo flag position consistent).",
  "all GameData values meeting the conditions, every file version",
  "About 170 fields of which many are optional; order-dependent parsing.",
  [V+"gamedata.rs read_all_gamedata_records, write_all_gamedata_records"])
p("Order-dependent FSS flag of 10.8 beta tables",
  "Reading and re-writing game data keeps the position of the fullscreen-stereo (EFSS) record, so that the table checksum is unchanged. (False when a camera layout mode record is present at version 1080.)",
  "all game data values of version 1080",
  "Depends on the combination of version, flag and presence of the preceding record.",
  [V+"gamedata.rs is_10_8_0_beta1_to_beta4, EFSS, CLMO"])
p("Collections and custom info tags round-trip",
  "Collections (name, members, flags) and the ordered list of custom info tag names read back equal after writing.",
  "all collections and all lists of tag names",
  "Unbounded member lists with arbitrary Unicode names.",
  [V+"collection.rs read, write", V+"custominfotags.rs read_custominfotags, write_custominfotags"])
p("Embedded images round-trip",
  "An image with an embedded file, or a link, reads back equal after writing. For raw bitmap images this holds only if the compressed data does not contain the byte sequence ALTV and no embedded file is present as well.",
  "all image records",
  "Depends on arbitrary binary content.",
  [V+"image.rs read, write, read_jpeg, write_jpg", V+"biff.rs data_until"])
p("Sounds round-trip",
  "A sound written for a file version reads back equal, for every version, under explicit conditions: for versions before 1031 volume, balance and fade are not stored; for non-WAV sounds the wave format header is not stored.",
  "all sounds, all file versions",
  "Positional (untagged) format whose layout depends on file name, version.",
  [V+"sound.rs read, write"])
p("WAV header round-trip",
  "A WAV header written to bytes reads back with the same format fields and the reader is positioned at the sample data, for every header the writer produces.",
  "all headers (with extra chunks)",
  "Chunk walk with padding and recovery heuristics over arbitrary contents.",
  [V+"wav.rs read_wav_header, write_wav_header"])
p("Exporting a sound to a .wav file and importing it back keeps the sound",
  "Expanding a sound to its file and reading it back restores sample data and wave format under explicit consistency conditions of the format fields; non-WAV sounds are stored verbatim.",
  "all sounds",
  "Header fields are recomputed on export; equality depends on arithmetic relations between fields.",
  [V+"sound.rs write_sound, read_sound"])
p("Materials round-trip in all three storage formats",
  "Modern material records, the fixed-size legacy material array and the legacy physics array read back equal to what was written (names of up to 31 NUL-free Latin-1 characters for the fixed-size formats).",
  "all materials and all lists of materials",
  "Fixed layouts with truncation, 2^32 float patterns, unbounded lists.",
  [V+"material.rs Material, SaveMaterial, SavePhysicsMaterial"])
p("Render probes keep trailing bytes",
  "A render probe followed by arbitrary trailing bytes reads back equal, including the trailing bytes, so a rewritten table is byte-identical there.",
  "all probes and all trailing byte sequences",
  "Arbitrary trailing data.",
  [V+"renderprobe.rs RenderProbeWithGarbage"])
p("Table info round-trips",
  "The descriptive table info (twelve known texts, screenshot, custom properties) written to the file reads back equal provided no custom property uses a reserved or duplicate stream name.",
  "all table infos",
  "Property maps are unbounded with arbitrary names.",
  [V+"tableinfo.rs read_tableinfo, write_tableinfo"])
p("Whole table round-trip",
  "A table written to a .vpx file and read back has the same version, info, custom tags, game data, items, images, sounds, fonts and collections, in the same order, whenever the counts in the game data match the lists.",
  "all tables with consistent counts and representable parts",
  "Number of items, images, etc. is unbounded; each stream is addressed by a generated name.",
  [V+"mod.rs read_vpx, write_vpx, read_gameitems, write_game_items, ..."])
p("Editing operations keep counts consistent",
  "After any sequence of adding items, adding or replacing images and setting the script on a table, the stored counts equal the list lengths, replaced images keep their position and no two images have names equal ignoring ASCII case if none did before.",
  "all sequences of edit operations from any consistent table",
  "Any length of history.",
  [V+"mod.rs add_game_item, add_or_replace_image, set_script"])
p("Lock/unlock state machine",
  "Whatever sequence of lock and unlock calls is made on a table file, the table is locked after it iff the last call was lock (or, with no calls, it was initially); a call returns true iff it changed the state, and only then is the file written and the counter advanced by one (with wrap-around at 2^32).",
  "all histories of lock/unlock calls, all initial counters",
  "Unbounded histories and the counter's wrap-around.",
  [V+"mod.rs VpxFile::lock, unlock, is_locked"])
p("Rewriting game data leaves the other streams alone",
  "Locking, unlocking or importing a script changes only the GameData and MAC streams of the file; every other stream keeps its bytes.",
  "all files, all operation histories",
  "All histories and all contents.",
  [V+"mod.rs write_gamedata, lock, unlock, importvbs"])
p("Integrity check passes after every write",
  "After writing a whole table, importing a script, locking or unlocking, verify reports OK; verify reports failure whenever the stored checksum differs from the recomputed one.",
  "all files and histories of operations",
  "All histories.",
  [V+"mod.rs verify, generate_mac, write_mac, importvbs, write_vpx"])
p("What the checksum covers",
  "The checksum depends only on the version, the listed table-info streams, custom info tags and their values, game data and collections; changes to items, images, sounds, fonts never change it; two files whose covered content has the same canonical hash input have the same checksum.",
  "all pairs of files",
  "Universally quantified over pairs of files.",
  [V+"mod.rs generate_mac, FILE_STRUCTURE"])
p("Script extract/import",
  "Extracting the script to a file and importing the unmodified file back leaves the script unchanged; importing any text makes that text the script; extraction respects an existing file unless overwrite is requested.",
  "all tables, all script texts, all states of the target file",
  "All contents and file states.",
  [V+"mod.rs extractvbs, importvbs, vbs_path_for"])
p("Compacting is crash-tolerant and content-preserving",
  "Compacting a table file preserves every storage and stream; at every crash point there is a complete copy of the table either at the original path or at the temporary path. (It is false that the original path always holds a table: it is removed before the rename.)",
  "all files, all crash points",
  "All crash points and contents.",
  [V+"mod.rs compact, compact_cfb"])
p("Pre-10.8 compatibility rules",
  "Effective visibility, static rendering, depth bias, backface, lighting and light-height decisions follow the legacy rule exactly for versions before 1080 and the stored value from 1080 on.",
  "all versions and all field values",
  "2^32 versions and float values.",
  [V+"compat.rs"])
p("Quantised floats are stable",
  "A value in 0..255 stored for a quantised float (lighting below, edge alpha, sound of playfield) converts to a float and back to the same value; values read are always in 0..1 and the conversion is monotone.",
  "all stored 8-bit values; all floats for range",
  "All float inputs.",
  [V+"math/quantize.rs"])
p("Enumerations map one-to-one to stored numbers",
  "For every enumerated setting, converting to its stored number and back gives the same setting, distinct settings have distinct numbers, and the accepted numbers are exactly those; the exceptions (unknown gate types, trigger shapes above 7) are as stated.",
  "all enum values, all 32-bit numbers",
  "2^32 numbers per enum.",
  [V+"gameitem/*.rs From<u32>/From<&...> for u32"])
p("Colours convert losslessly",
  "A colour keeps all of its components through the Windows integer form, the byte form in the file and the JSON text form.",
  "all 2^32 colours; all malformed texts for rejection",
  "2^32 values and arbitrary texts.",
  [V+"color.rs"])
p("Non-finite floats survive the JSON form",
  "Every f32 bit pattern, including every NaN payload and both infinities, survives conversion to its JSON form and back.",
  "all 2^32 bit patterns",
  "2^32 values.",
  [V+"json.rs F32WithNanInf"])
p("Expanded form of an item plus the item index restores the item",
  "Converting an item to its JSON form and back and then applying the lock and layer information kept in the index restores every field of the item (mesh data of primitives excepted, stored separately).",
  "all items of every kind",
  "Dozens of fields and optional patterns.",
  [V+"gameitem/*.rs *Json", V+"gameitem.rs set_locked, set_editor_layer*", V+"expanded/gameitems.rs"])
p("Expanded item file names are unique",
  "Whatever the items' names, expanding assigns every item a file name, no two of which are equal ignoring case, each made only of safe characters, and assignment terminates.",
  "all lists of item names, including duplicates and adversarial suffixes like __1",
  "Any list of names; adversarial collisions with generated suffixes.",
  [V+"expanded/gameitems.rs FileNameGen, gameitem_filename_stem"])
p("Parallel expansion is schedule independent",
  "Writing the item files in any interleaving leaves the same directory contents as writing them sequentially, because the paths are distinct.",
  "all schedules (permutations) of writes",
  "Exponentially many schedules.",
  [V+"expanded/gameitems.rs write_gameitems"])
p("Part group ordering warnings are exact",
  "A warning is reported for an item iff it names a part group that is not the name of a part group item appearing earlier in the list; no warning otherwise.",
  "all lists of items",
  "All list lengths and orders.",
  [V+"gameitem.rs validate_part_group_order"])
p("In-memory file system behaves like a map",
  "For every history of writes, reads, existence checks through the in-memory file system, a read returns the bytes of the latest completed write to that path, and fails iff there was none.",
  "all histories of operations",
  "Unbounded histories.",
  ["src/filesystem.rs MemoryFileSystem, MemoryFileWriter"])
p("Expanded image and sound files get distinct names",
  "Expanding a table gives distinct file names to images (and sounds) with equal names. (False: a generated _dedupN name may equal another image's own name, and expansion then fails.)",
  "all lists of image names",
  "Adversarial combinations of names.",
  [V+"expanded/images.rs write_images", V+"expanded/sounds.rs write_sounds"])
p("Expanded fonts keep their data",
  "Expanding and re-assembling a table keeps every font's data. (False if two fonts share a file name: the later silently overwrites the earlier.)",
  "all lists of fonts",
  "Any combination of names.",
  [V+"expanded/fonts.rs write_fonts, read_fonts"])
p("Mesh files of different primitives do not collide",
  "Mesh and animation-frame files written for different primitives have different paths. (False: the frame file of primitive X and the mesh of a primitive named X_anim_0 are the same file.)",
  "all lists of primitives",
  "Adversarial names.",
  [V+"expanded/primitives.rs animation_frame_file_name, write_gameitem_binaries, read_gameitem_binaries"])
p("Bitmap block framing",
  "Splitting compressed bitmap data into length-prefixed blocks and joining them gives the original data; no block is longer than 254 bytes or empty.",
  "all byte sequences",
  "Unbounded data; boundary at multiples of 254.",
  [V+"lzw.rs to_blocks, from_blocks"])
p("Red/blue swap is its own inverse",
  "Swapping red and blue in pixel data twice gives the original data and keeps alpha and green of every pixel.",
  "all pixel buffers whose length is a multiple of four",
  "Unbounded data.",
  [V+"image.rs swap_red_and_blue"])
p("References reported by an item",
  "The lists of images and materials reported by an item contain no empty name and every non-empty reference field of the item's kind is reported.",
  "all items of every kind",
  "All combinations of empty and non-empty references.",
  [V+"gameitem.rs images, materials, physics_material"])
p("Font style flags",
  "Any set of font styles survives storage as a bit set and distinct sets are stored differently; unknown bits are ignored.",
  "all subsets of styles, all flag bytes",
  "Finite but semantic; combined with arbitrary names and sizes in the font record.",
  [V+"gameitem/font.rs"])
p("Lock state accessors agree",
  "Setting the lock flag, layer, layer name or layer visibility on an item and reading it back returns the value set, and changes nothing else of the item, for every kind that supports it.",
  "all items of every kind, all values",
  "All items.",
  [V+"gameitem.rs set_locked, is_locked, set_editor_layer..."])
p("Mesh index width",
  "Face indices of a primitive mesh written in the width chosen from the vertex count read back equal, for every vertex count, and the width is 4 bytes exactly when the mesh has more than 65535 vertices.",
  "all vertex counts and all in-range face lists",
  "Boundary at 65535 and unbounded meshes.",
  [V+"gameitem/primitive.rs read_mesh, MAX_VERTICES_FOR_2_BYTE_INDEX", V+"obj.rs write_vertex_index_for_vpx"])
p("Version numbers order and convert consistently",
  "Version numbers survive the file form and the text form, and ordering follows the number.",
  "all 32-bit versions",
  "2^32 values.",
  [V+"version.rs"])
p("Image metadata JSON round-trips",
  "The JSON description of an image plus its data file restores the image record, for embedded files, bitmaps and links.",
  "all images",
  "Optional parts and derived fields in all combinations.",
  [V+"image.rs ImageDataJson"])
open('/verif/properties.jsonl','w').write(''.join(json.dumps(x,ensure_ascii=False)+'\n' for x in P))
print(len(P))
