{"id": "C01", "title": "Tagged record framing round-trips", "statement": "Whatever sequence of tagged records is written through the BIFF writer and closed, the produced bytes are exactly the concatenation of records whose 4-byte little-endian length field equals 4 plus the payload length; reading them back with the BIFF reader yields the same (tag, payload) sequence in the same order and reports the end exactly after the last one.", "quantifier": "all finite sequences of (tag of 1..4 non-NUL bytes other than ENDB, payload of any length below 2^32-4)", "why_tests_cant": "The number and sizes of records are unbounded; framing bugs (off by 4, missed patch of the length placeholder) depend on combinations of adjacent records.", "anchors": ["src/vpx/biff.rs BiffReader::next, get_record_data, skip_tag; BiffWriter::new_tag, end_tag, close"]}
{"id": "C02", "title": "Primitive fields survive writing and reading", "statement": "Every bool, u8, u16, u32, i32, f32 (bit pattern, including NaN payloads, infinities and signed zero), f64, u64, 2/3/4-component vector written into a record reads back as the identical value, consuming exactly the record.", "quantifier": "all values of each primitive type, any bytes following the record", "why_tests_cant": "2^32 and more values per field, and any continuation of the stream.", "anchors": ["src/vpx/biff.rs get_bool/get_u32/get_f32/... and write_*", "src/vpx/gameitem/vertex2d.rs", "src/vpx/gameitem/vertex3d.rs", "src/vpx/gameitem/vertex4d.rs"]}
{"id": "C03", "title": "Latin-1 text fields: what survives and what does not", "statement": "A text field (names, image names, paths, layer names) reads back identical exactly when it contains only characters up to U+00FF and no NUL; with a NUL the text is cut at the first NUL; with a character above U+00FF writing fails or is lossy.", "quantifier": "all strings of Unicode scalar values", "why_tests_cant": "Strings are unbounded and the failure set is a property of every character position.", "anchors": ["src/vpx/biff.rs get_string, get_str, write_string"]}
{"id": "C04", "title": "Wide text fields survive for every Unicode string", "statement": "Names stored as UTF-16 (item names, collection names and members, table name, table info texts) read back identical for every string, including NUL and characters outside the BMP; invalid UTF-16 (odd byte count or unpaired surrogate) is rejected.", "quantifier": "all strings of Unicode scalar values; all byte sequences for rejection", "why_tests_cant": "All strings and all byte sequences.", "anchors": ["src/vpx/utf16.rs encode_utf16le, decode_utf16le", "src/vpx/biff.rs get_wide_string, write_wide_string"]}
{"id": "C05", "title": "Script bytes are preserved whatever their encoding", "statement": "Reading a script and writing it back reproduces the same bytes whether or not they are valid UTF-8, provided they contain no NUL; setting a script text and reading it back yields that text.", "quantifier": "all byte sequences without NUL; all NUL-free strings", "why_tests_cant": "UTF-8 validity is a property of every prefix; old Latin-1 scripts exercise arbitrary byte mixes.", "anchors": ["src/vpx/model.rs StringWithEncoding", "src/vpx/biff.rs get_str_with_encoding_no_remaining_update, write_tagged_string_with_encoding_no_size", "src/vpx/gamedata.rs set_code"]}
{"id": "C06", "title": "Readers skip records they do not know", "statement": "Inserting records with tags a reader does not know, with any payload, anywhere before the end marker of a game item, game data, collection, material or any other tagged structure does not change what is read from the known records (forward compatibility).", "quantifier": "all record streams, all positions, all unknown tags, all payloads", "why_tests_cant": "Any number of unknown records at any positions.", "anchors": ["src/vpx/biff.rs skip_tag", "src/vpx/gameitem/*.rs biff_read default arms", "src/vpx/gamedata.rs read_all_gamedata_records"]}
{"id": "C07", "title": "Reading always terminates", "statement": "Reading any byte sequence as a tagged structure terminates with either a value or an error: every iteration of the record loop consumes at least 8 bytes of input, so at most len/8 records are visited.", "quantifier": "all byte sequences, including truncated and malicious ones", "why_tests_cant": "Non-termination on crafted inputs cannot be excluded by examples.", "anchors": ["src/vpx/biff.rs BiffReader::next", "src/vpx/gameitem/*.rs biff_read loops"]}
{"id": "C08", "title": "Drag points round-trip", "statement": "A list of drag points of any length written inside a wall, ramp, rubber, light, trigger or flasher reads back as the same list in the same order.", "quantifier": "all lists of drag points (names NUL-free Latin-1)", "why_tests_cant": "Nested sub-streams with their own end markers; unbounded counts.", "anchors": ["src/vpx/gameitem/dragpoint.rs BiffRead, BiffWrite, WriteDragPoints"]}
{"id": "C09", "title": "Every kind of game item round-trips through the table file", "statement": "For each of the item kinds (wall, flipper, timer, plunger, text box, bumper, trigger, light, kicker, decal, gate, spinner, ramp, reel, light sequencer, primitive, flasher, rubber, hit target, ball, part group) writing an item and reading it back yields an equal item, under explicit conditions on its texts and optional parts.", "quantifier": "all items of every kind with representable texts", "why_tests_cant": "Each kind has dozens of fields with optional parts: the combinations (2^n optional patterns) cannot be enumerated, and one swapped tag corrupts users' tables silently.", "anchors": ["src/vpx/gameitem/*.rs BiffRead/BiffWrite", "src/vpx/gameitem.rs read, BiffWrite for GameItemEnum"]}
{"id": "C10", "title": "Item kind is decided by the stored type number", "statement": "An item written as kind K is read back as kind K: the type number written for each kind is the number the reader dispatches to the same kind; unknown numbers become generic items with that number.", "quantifier": "all item kinds and all 32-bit type numbers", "why_tests_cant": "The type number ranges over 2^32 values.", "anchors": ["src/vpx/gameitem.rs read, write_with_type, ITEM_TYPE_*"]}
{"id": "C11", "title": "Lossy fields are lossy only once", "statement": "For every item that can be read, writing it, reading it and writing it again gives the same bytes as the first write, so repeated save cycles do not drift.", "quantifier": "all items, any number of save/load cycles", "why_tests_cant": "Any number of iterations over any item.", "anchors": ["src/vpx/gameitem/*.rs BiffRead/BiffWrite", "src/vpx/math/quantize.rs"]}
{"id": "C12", "title": "Game data round-trips", "statement": "The table-wide settings written to the GameData stream read back equal, under explicit conditions (material counts consistent, texts representable, fullscreen-stereo flag position consistent).", "quantifier": "all GameData values meeting the conditions, every file version", "why_tests_cant": "About 170 fields of which many are optional; order-dependent parsing.", "anchors": ["src/vpx/gamedata.rs read_all_gamedata_records, write_all_gamedata_records"]}
{"id": "C13", "title": "Order-dependent FSS flag of 10.8 beta tables", "statement": "Reading and re-writing game data keeps the position of the fullscreen-stereo (EFSS) record, so that the table checksum is unchanged. (False when a camera layout mode record is present at version 1080.)", "quantifier": "all game data values of version 1080", "why_tests_cant": "Depends on the combination of version, flag and presence of the preceding record.", "anchors": ["src/vpx/gamedata.rs is_10_8_0_beta1_to_beta4, EFSS, CLMO"]}
{"id": "C14", "title": "Collections and custom info tags round-trip", "statement": "Collections (name, members, flags) and the ordered list of custom info tag names read back equal after writing.", "quantifier": "all collections and all lists of tag names", "why_tests_cant": "Unbounded member lists with arbitrary Unicode names.", "anchors": ["src/vpx/collection.rs read, write", "src/vpx/custominfotags.rs read_custominfotags, write_custominfotags"]}
{"id": "C15", "title": "Embedded images round-trip", "statement": "An image with an embedded file, or a link, reads back equal after writing. For raw bitmap images this holds only if the compressed data does not contain the byte sequence ALTV and no embedded file is present as well.", "quantifier": "all image records", "why_tests_cant": "Depends on arbitrary binary content.", "anchors": ["src/vpx/image.rs read, write, read_jpeg, write_jpg", "src/vpx/biff.rs data_until"]}
{"id": "C16", "title": "Sounds round-trip", "statement": "A sound written for a file version reads back equal, for every version, under explicit conditions: for versions before 1031 volume, balance and fade are not stored; for non-WAV sounds the wave format header is not stored.", "quantifier": "all sounds, all file versions", "why_tests_cant": "Positional (untagged) format whose layout depends on file name, version.", "anchors": ["src/vpx/sound.rs read, write"]}
{"id": "C17", "title": "WAV header round-trip", "statement": "A WAV header written to bytes reads back with the same format fields and the reader is positioned at the sample data, for every header the writer produces.", "quantifier": "all headers (with extra chunks)", "why_tests_cant": "Chunk walk with padding and recovery heuristics over arbitrary contents.", "anchors": ["src/vpx/wav.rs read_wav_header, write_wav_header"]}
{"id": "C18", "title": "Exporting a sound to a .wav file and importing it back keeps the sound", "statement": "Expanding a sound to its file and reading it back restores sample data and wave format under explicit consistency conditions of the format fields; non-WAV sounds are stored verbatim.", "quantifier": "all sounds", "why_tests_cant": "Header fields are recomputed on export; equality depends on arithmetic relations between fields.", "anchors": ["src/vpx/sound.rs write_sound, read_sound"]}
{"id": "C19", "title": "Materials round-trip in all three storage formats", "statement": "Modern material records, the fixed-size legacy material array and the legacy physics array read back equal to what was written (names of up to 31 NUL-free Latin-1 characters for the fixed-size formats). A modern material converts to a legacy one with its values kept between their limits.", "quantifier": "all materials and all lists of materials", "why_tests_cant": "Fixed layouts with truncation, 2^32 float patterns, unbounded lists.", "anchors": ["src/vpx/material.rs Material, SaveMaterial, SavePhysicsMaterial"]}
{"id": "C20", "title": "Render probes keep trailing bytes", "statement": "A render probe followed by arbitrary trailing bytes reads back equal, including the trailing bytes, so a rewritten table is byte-identical there.", "quantifier": "all probes and all trailing byte sequences", "why_tests_cant": "Arbitrary trailing data.", "anchors": ["src/vpx/renderprobe.rs RenderProbeWithGarbage"]}
{"id": "C21", "title": "Table info round-trips", "statement": "The descriptive table info (twelve known texts, screenshot, custom properties) written to the file reads back equal provided no custom property uses a reserved or duplicate stream name.", "quantifier": "all table infos", "why_tests_cant": "Property maps are unbounded with arbitrary names.", "anchors": ["src/vpx/tableinfo.rs read_tableinfo, write_tableinfo"]}
{"id": "C22", "title": "Whole table round-trip", "statement": "A table written to a .vpx file and read back has the same version, info, custom tags, game data, items, images, sounds, fonts and collections, in the same order, whenever the counts in the game data match the lists.", "quantifier": "all tables with consistent counts and representable parts", "why_tests_cant": "Number of items, images, etc. is unbounded; each stream is addressed by a generated name.", "anchors": ["src/vpx/mod.rs read_vpx, write_vpx, read_gameitems, write_game_items, ..."]}
{"id": "C23", "title": "Editing operations keep counts consistent", "statement": "After any sequence of adding items, adding or replacing images and setting the script on a table, the stored counts equal the list lengths, replaced images keep their position and no two images have names equal ignoring ASCII case if none did before.", "quantifier": "all sequences of edit operations from any consistent table", "why_tests_cant": "Any length of history.", "anchors": ["src/vpx/mod.rs add_game_item, add_or_replace_image, set_script"]}
{"id": "C24", "title": "Lock/unlock state machine", "statement": "Whatever sequence of lock and unlock calls is made on a table file, the table is locked after it iff the last call was lock (or, with no calls, it was initially); a call returns true iff it changed the state, and only then is the file written and the counter advanced by one (with wrap-around at 2^32).", "quantifier": "all histories of lock/unlock calls, all initial counters", "why_tests_cant": "Unbounded histories and the counter's wrap-around.", "anchors": ["src/vpx/mod.rs VpxFile::lock, unlock, is_locked"]}
{"id": "C25", "title": "Rewriting game data leaves the other streams alone", "statement": "Locking, unlocking or importing a script changes only the GameData and MAC streams of the file; every other stream keeps its bytes.", "quantifier": "all files, all operation histories", "why_tests_cant": "All histories and all contents.", "anchors": ["src/vpx/mod.rs write_gamedata, lock, unlock, importvbs"]}
{"id": "C26", "title": "Integrity check passes after every write", "statement": "After writing a whole table, importing a script, locking or unlocking, verify reports OK; verify reports failure whenever the stored checksum differs from the recomputed one.", "quantifier": "all files and histories of operations", "why_tests_cant": "All histories.", "anchors": ["src/vpx/mod.rs verify, generate_mac, write_mac, importvbs, write_vpx"]}
{"id": "C27", "title": "What the checksum covers", "statement": "The checksum depends only on the version, the listed table-info streams, custom info tags and their values, game data and collections; changes to items, images, sounds, fonts never change it; two files whose covered content has the same canonical hash input have the same checksum.", "quantifier": "all pairs of files", "why_tests_cant": "Universally quantified over pairs of files.", "anchors": ["src/vpx/mod.rs generate_mac, FILE_STRUCTURE"]}
{"id": "C28", "title": "Script extract/import", "statement": "Extracting the script to a file and importing the unmodified file back leaves the script unchanged; importing any text makes that text the script; extraction respects an existing file unless overwrite is requested.", "quantifier": "all tables, all script texts, all states of the target file", "why_tests_cant": "All contents and file states.", "anchors": ["src/vpx/mod.rs extractvbs, importvbs, vbs_path_for"]}
{"id": "C29", "title": "Compacting is crash-tolerant and content-preserving", "statement": "Compacting a table file preserves every storage and stream, so that the table is read as before; at every crash point there is a complete copy of the table either at the original path or at the temporary path. (It is false that the original path always holds a table: it is removed before the rename.)", "quantifier": "all files, all crash points", "why_tests_cant": "All crash points and contents.", "anchors": ["src/vpx/mod.rs compact, compact_cfb"]}
{"id": "C30", "title": "Pre-10.8 compatibility rules", "statement": "Effective visibility, static rendering, depth bias, backface, lighting and light-height decisions follow the legacy rule exactly for versions before 1080 and the stored value from 1080 on.", "quantifier": "all versions and all field values", "why_tests_cant": "2^32 versions and float values.", "anchors": ["src/vpx/compat.rs"]}
{"id": "C31", "title": "Quantised floats are stable", "statement": "A value in 0..255 stored for a quantised float (lighting below, edge alpha, sound of playfield) converts to a float and back to the same value; values read are always in 0..1 and the conversion is monotone.", "quantifier": "all stored 8-bit values; all floats for range", "why_tests_cant": "All float inputs.", "anchors": ["src/vpx/math/quantize.rs"]}
{"id": "C32", "title": "Enumerations map one-to-one to stored numbers", "statement": "For every enumerated setting, converting to its stored number and back gives the same setting, distinct settings have distinct numbers, and the accepted numbers are exactly those; the exceptions (unknown gate types, trigger shapes above 7) are as stated.", "quantifier": "all enum values, all 32-bit numbers", "why_tests_cant": "2^32 numbers per enum.", "anchors": ["src/vpx/gameitem/*.rs From<u32>/From<&...> for u32"]}
{"id": "C33", "title": "Colours convert losslessly", "statement": "A colour keeps all of its components through the Windows integer form, the byte form in the file and the JSON text form. A text is read as a colour exactly if it is #RRGGBB or UU#RRGGBB with hexadecimal bytes of either case, whose first digit may also be a plus sign; another text of ASCII characters is refused with an error.", "quantifier": "all 2^32 colours; all texts", "why_tests_cant": "2^32 values and arbitrary texts.", "anchors": ["src/vpx/color.rs"]}
{"id": "C34", "title": "Non-finite floats survive the JSON form", "statement": "In the number fields whose JSON form allows any number (fade speeds of lights, ring offset of bumpers, elasticity, friction and scatter of materials) every f32 bit pattern, including every NaN payload and both infinities, survives conversion to its JSON form and back. (False of all other number fields: NaN and the infinities become null there, which makes reading fail or loses the value.)", "quantifier": "all 2^32 bit patterns", "why_tests_cant": "2^32 values.", "anchors": ["src/vpx/json.rs F32WithNanInf"]}
{"id": "C35", "title": "Expanded form of an item plus the item index restores the item", "statement": "Converting an item to its JSON form and back and then applying the lock and layer information kept in the index restores every field of the item (mesh data of primitives excepted, stored separately).", "quantifier": "all items of every kind", "why_tests_cant": "Dozens of fields and optional patterns.", "anchors": ["src/vpx/gameitem/*.rs *Json", "src/vpx/gameitem.rs set_locked, set_editor_layer*", "src/vpx/expanded/gameitems.rs"]}
{"id": "C36", "title": "Expanded item file names are unique", "statement": "Whatever the items' names, expanding assigns every item a file name, no two of which are equal ignoring case, each made only of safe characters, and assignment terminates.", "quantifier": "all lists of item names, including duplicates and adversarial suffixes like __1", "why_tests_cant": "Any list of names; adversarial collisions with generated suffixes.", "anchors": ["src/vpx/expanded/gameitems.rs FileNameGen, gameitem_filename_stem"]}
{"id": "C37", "title": "Parallel expansion is schedule independent", "statement": "Writing the item files in any interleaving leaves the same directory contents as writing them sequentially, because the paths are distinct.", "quantifier": "all schedules (permutations) of writes", "why_tests_cant": "Exponentially many schedules.", "anchors": ["src/vpx/expanded/gameitems.rs write_gameitems"]}
{"id": "C38", "title": "Part group ordering warnings are exact", "statement": "A warning is reported for an item iff it names a part group that is not the name of a part group item appearing at or before its own position in the list; no warning otherwise.", "quantifier": "all lists of items", "why_tests_cant": "All list lengths and orders.", "anchors": ["src/vpx/gameitem.rs validate_part_group_order"]}
{"id": "C39", "title": "In-memory file system behaves like a map", "statement": "For every history of writes, reads, existence checks through the in-memory file system, a read returns the bytes of the latest completed write to that path, and fails iff there was none.", "quantifier": "all histories of operations", "why_tests_cant": "Unbounded histories.", "anchors": ["src/filesystem.rs MemoryFileSystem, MemoryFileWriter"]}
{"id": "C40", "title": "Expanded image and sound files get distinct names", "statement": "Expanding a table gives every image a file name of its own, and every sound, also if images or sounds have equal names, provided no name ends in _dedup and a number. Without that condition it is false: a generated name may equal another image's own name, and expansion then fails. The file of a sound has the extension of its path, or wav if that has none.", "quantifier": "all lists of image names", "why_tests_cant": "Adversarial combinations of names.", "anchors": ["src/vpx/expanded/images.rs write_images", "src/vpx/expanded/sounds.rs write_sounds"]}
{"id": "C41", "title": "Expanded fonts keep their data", "statement": "Expanding and re-assembling a table keeps every font's name, path and data if the fonts have different file names. If two fonts share a file name, both get the data of the later one.", "quantifier": "all lists of fonts", "why_tests_cant": "Any combination of names.", "anchors": ["src/vpx/expanded/fonts.rs write_fonts, read_fonts"]}
{"id": "C42", "title": "Mesh files of different primitives do not collide", "statement": "Mesh and animation-frame files written for different primitives have different paths, provided no primitive is called json or like an animation frame. Without that condition it is false: the frame file of primitive X and the mesh of a primitive named X_anim_0 are the same file.", "quantifier": "all lists of primitives", "why_tests_cant": "Adversarial names.", "anchors": ["src/vpx/expanded/primitives.rs animation_frame_file_name, write_gameitem_binaries, read_gameitem_binaries"]}
{"id": "C43", "title": "Bitmap block framing", "statement": "Splitting compressed bitmap data into length-prefixed blocks and joining them gives the original data; no block is longer than 254 bytes or empty.", "quantifier": "all byte sequences", "why_tests_cant": "Unbounded data; boundary at multiples of 254.", "anchors": ["src/vpx/lzw.rs to_blocks, from_blocks"]}
{"id": "C44", "title": "Red/blue swap is its own inverse", "statement": "Swapping red and blue in pixel data twice gives the original data and keeps alpha and green of every pixel.", "quantifier": "all pixel buffers whose length is a multiple of four", "why_tests_cant": "Unbounded data.", "anchors": ["src/vpx/image.rs swap_red_and_blue"]}
{"id": "C45", "title": "References reported by an item", "statement": "The lists of images and materials reported by an item contain no empty name and every non-empty reference field of the item's kind is reported.", "quantifier": "all items of every kind", "why_tests_cant": "All combinations of empty and non-empty references.", "anchors": ["src/vpx/gameitem.rs images, materials, physics_material"]}
{"id": "C46", "title": "Font style flags", "statement": "Any set of font styles survives storage as a bit set and distinct sets are stored differently; unknown bits are ignored.", "quantifier": "all subsets of styles, all flag bytes", "why_tests_cant": "Finite but semantic; combined with arbitrary names and sizes in the font record.", "anchors": ["src/vpx/gameitem/font.rs"]}
{"id": "C47", "title": "Lock state accessors agree", "statement": "Setting the lock flag, layer, layer name or layer visibility on an item and reading it back returns the value set, and changes nothing else of the item, for every kind that supports it.", "quantifier": "all items of every kind, all values", "why_tests_cant": "All items.", "anchors": ["src/vpx/gameitem.rs set_locked, is_locked, set_editor_layer..."]}
{"id": "C48", "title": "Mesh index width", "statement": "Face indices of a primitive mesh written in the width chosen from the vertex count read back equal, for every vertex count, and the width is 4 bytes exactly when the mesh has more than 65535 vertices.", "quantifier": "all vertex counts and all in-range face lists", "why_tests_cant": "Boundary at 65535 and unbounded meshes.", "anchors": ["src/vpx/gameitem/primitive.rs read_mesh, MAX_VERTICES_FOR_2_BYTE_INDEX", "src/vpx/obj.rs write_vertex_index_for_vpx"]}
{"id": "C49", "title": "Version numbers order and convert consistently", "statement": "Version numbers survive the file form and the text form, and ordering follows the number.", "quantifier": "all 32-bit versions", "why_tests_cant": "2^32 values.", "anchors": ["src/vpx/version.rs"]}
{"id": "C50", "title": "Image metadata JSON round-trips", "statement": "The JSON description of an image plus its data file restores the image record, for embedded files, bitmaps and links.", "quantifier": "all images", "why_tests_cant": "Optional parts and derived fields in all combinations.", "anchors": ["src/vpx/image.rs ImageDataJson"]}
{"id": "C51", "title": "Embedded fonts round-trip", "statement": "Writing an embedded font (name, path, file bytes) and reading it back gives the same font, and reading a font stream, writing it and reading it again is stable.", "quantifier": "all fonts with Latin-1 NUL-free name and path and any data; all font streams", "why_tests_cant": "Data is arbitrary binary of arbitrary length.", "anchors": ["src/vpx/font.rs FontData", "src/vpx/font.rs read", "src/vpx/font.rs write"]}
{"id": "C52", "title": "A primitive's mesh survives export to an OBJ file and back", "statement": "Writing a primitive's mesh as an OBJ file when a table is expanded and reading it back gives the same vertex bytes, the same triangles and the same winding, provided every number that is printed as it is survives its decimal text; vertices with NaN are restored from the bytes in the comment. Not every finite f32 survives the text: the number is parsed as f64 and then rounded to f32.", "quantifier": "all meshes (any number of vertices and triangles, any coordinates), all object names", "why_tests_cant": "The f32 values whose shortest text rounds to the wrong neighbour through f64 are a handful among 2^32, and meshes are unbounded.", "anchors": ["src/vpx/obj.rs: write_obj_to_writer, read_obj_from_reader_with_options, VpxObjReader", "src/vpx/expanded/primitives.rs: read_gameitem_binaries"]}
{"id": "C53", "title": "The flipped V texture coordinate is recovered bit for bit", "statement": "Every finite V texture coordinate between 2^-1 and 2 is written so that one minus the parsed text is that number again, without a byte comment; the text written for any V can always be parsed, and whenever the writer reports the text as exact, reading it gives the same bits. The writer reports a text as exact if and only if there is any f64 at all that would be read as that coordinate: that is so for zero, the infinities, every number of absolute value at least 2^-30 (2^-29 if negative), and for no nonzero number below 2^-53 (2^-52 if negative) nor the negative zero. The text has at most 17 digits behind the point, or is that of an f32, and with one digit less it would not do.", "quantifier": "all 2^32 f32 values of V", "why_tests_cant": "It depends on rounding for every f32, and on the text of every f64.", "anchors": ["src/vpx/obj.rs: flipped_v, shortest_recovering_text, estimated_flip_precision, needs_byte_preservation"]}
{"id": "C54", "title": "Animation frames survive their OBJ files", "statement": "Each animation frame of a primitive that is written next to the mesh as an OBJ file is read back as the same positions and normals, provided its numbers survive their text and the frame has as many vertices as the mesh; all frames come back in order. A NaN in a frame does not come back.", "quantifier": "all frames, all numbers of frames", "why_tests_cant": "Unbounded numbers of frames and vertices; every f32 value.", "anchors": ["src/vpx/expanded/primitives.rs: write_animation_frames_to_meshes, read_obj_as_frame"]}
{"id": "C55", "title": "A primitive's mesh survives export to GLB or glTF and back", "statement": "Writing a mesh as GLB and reading it gives the same vertex bytes and the same triangles; the file is a valid GLB container (magic, version 2, total length, 4 byte aligned chunks); a file that was cut off anywhere is never read as a mesh. The same round trip holds for a .gltf file with its .bin file, and for animation frames up to normals that are no numbers. (Damaged or foreign files can abort the reader: shown by counterexamples.)", "quantifier": "all meshes, all file contents", "why_tests_cant": "Chunk padding depends on lengths modulo 4, and damaged files are unbounded.", "anchors": ["src/vpx/gltf.rs: write_glb, read_glb, write_gltf, read_gltf"]}
{"id": "C56", "title": "OBJ files of other programs are triangulated without losing or mixing corners", "statement": "Reading an OBJ file with polygons or corners that mix positions, texture coordinates and normals gives triangles that show exactly the fans of the polygons with the positions, coordinates and normals named in the file; no corner is listed twice, all numbers are in range, faces with fewer than three corners or numbers that do not exist give an error, and no list of faces aborts the program.", "quantifier": "all lists of lines, all polygons", "why_tests_cant": "Unbounded polygons and index combinations.", "anchors": ["src/vpx/obj.rs: triangulate_and_dedup, resolve_index, VpxObjReader::read"]}
{"id": "C57", "title": "A table survives being expanded and assembled", "statement": "Expanding a table into an empty directory and assembling that directory again gives the same table: version, table info, game data, script, items, images, sounds, fonts and collections, in the same order, where pixels, meshes and animation frames may be compressed differently but decompress to the same; and expanding does not fail when the file names of images and of sounds differ. The conditions (consistent legacy materials, finite numbers, one kind of data per image, fonts with different file names, primitives not named like an animation frame) are stated with the theorem; a directory that is not empty can change the result.", "quantifier": "all tables that meet the conditions, all three mesh formats, all libraries for JSON, compression, BMP and OBJ text that read back what they write", "why_tests_cant": "Tables of any size with any combination of names and data; tests use a few fixed tables.", "anchors": ["src/vpx/expanded/mod.rs write, read", "src/vpx/expanded/gameitems.rs", "src/vpx/expanded/images.rs", "src/vpx/expanded/sounds.rs", "src/vpx/expanded/fonts.rs", "src/vpx/expanded/primitives.rs", "src/vpx/expanded/materials.rs", "src/vpx/expanded/metadata.rs"]}
{"id": "C58", "title": "Expanding changes files only in the chosen directory", "statement": "Expanding a table creates or changes no file outside the chosen directory and its four sub-directories, whether it succeeds or fails, if no image or sound name and no image, sound or font extension contains a slash. (False without that condition: the second of two images named /etc/x is written to /etc.)", "quantifier": "all tables, all prior file system contents, all mesh formats", "why_tests_cant": "Names are arbitrary text from a foreign file; every combination of equal names must be safe.", "anchors": ["src/vpx/expanded/mod.rs write", "src/vpx/expanded/images.rs write_images", "src/vpx/expanded/sounds.rs write_sounds", "src/vpx/expanded/fonts.rs write_fonts"]}
{"id": "C59", "title": "Expanding never overwrites an existing image, sound or item description", "statement": "A file that was in the images or sounds directory, or a JSON file that was in the gameitems directory, has the same contents after expanding any table into that directory, also if expanding fails half way. (The script, the fonts and mesh files are overwritten: shown by counterexamples.)", "quantifier": "all tables, all prior file system contents, all points of failure", "why_tests_cant": "Any prior directory and any table; a table may name two of its own files alike.", "anchors": ["src/vpx/expanded/images.rs write_images", "src/vpx/expanded/sounds.rs write_sounds", "src/vpx/expanded/gameitems.rs write_gameitems"]}
{"id": "C60", "title": "A triangulated outline covers exactly the outline", "statement": "When the outline of a wall top (or of a flasher or light) is cut into triangles, every triangle uses existing points, the triangles fit together along shared edges that occur once in each direction, and what remains as the border is exactly the outline, walked once; so for any area function the areas of the triangles add up to the area of the outline, and there are two triangles fewer than points. Cutting never panics. (False: not every outline without self-intersections is cut; for some the result is empty and the wall vanishes.)", "quantifier": "all lists of points with any coordinates, including NaN, any floating-point arithmetic", "why_tests_cant": "Outlines have any number of points at any position; each test fixes one outline.", "anchors": ["src/vpx/mesh/walls.rs triangulate_polygon", "src/vpx/mesh/mod.rs polygon_to_triangles", "src/vpx/mesh/walls.rs advance_point", "src/vpx/mesh/mod.rs advance_point"]}
{"id": "C61", "title": "The curve through drag points visits them in order", "statement": "The curve computed through the drag points of a wall, rubber, flasher, light or ramp consists of one piece for every two neighbouring drag points, in order, leaving out pairs that coincide; a piece starts at its drag point, continues with points of the spline through the two points, and every chord passes the flatness test. Exactly the drag points are marked as such. Computing it never panics. (False: with a NaN in a drag point the computation never ends.)", "quantifier": "all lists of drag points, all accuracies, open and closed curves, any floating-point arithmetic", "why_tests_cant": "Any number of points with any coordinates and unbounded recursion; tests fix a few curves.", "anchors": ["src/vpx/mesh/mod.rs get_rg_vertex_2d", "src/vpx/mesh/mod.rs get_rg_vertex_3d", "src/vpx/mesh/mod.rs recurse_smooth_line", "src/vpx/mesh/mod.rs CatmullCurve2D"]}
{"id": "C62", "title": "The mesh of a wall is the outline, extruded", "statement": "The mesh generated for a wall has, over every edge of its outline, a side of two triangles from the bottom height to the top height with the right normals, and a top that is the triangulated outline at the top height with normals up; only visible parts are included, both if none is visible. Every face uses three different existing vertices. If the outline is cut completely and is not counterclockwise, sides and top fit together to a consistently oriented surface that is open only at the bottom. Generating it never panics. (False: for a counterclockwise outline the sides face the other way than the top.)", "quantifier": "all walls with any drag points, heights and flags, any floating-point arithmetic", "why_tests_cant": "Any number of points at any place; a wrong index or offset shows only for some shapes.", "anchors": ["src/vpx/mesh/walls.rs build_wall_mesh", "src/vpx/mesh/walls.rs build_wall_meshes", "src/vpx/mesh/walls.rs build_side_mesh", "src/vpx/mesh/walls.rs build_top_mesh", "src/vpx/mesh/walls.rs build_top_mesh_item_space"]}
{"id": "C63", "title": "Texture coordinates along a wall follow the drag points", "statement": "The texture coordinate along the sides of a wall changes, between two drag points with their own coordinate, from one to the other in proportion to the length of the way, also across the end of the list; without such drag points it grows from 0 to 1 around the wall. If no two neighbouring drag points coincide, each coordinate is at the drag point it was given for. Computing it never panics. (False for coinciding drag points: the coordinate is lost or given to another point.)", "quantifier": "all lists of drag points, all curves through them, any floating-point arithmetic", "why_tests_cant": "Any number of points, any subset with own coordinates, sections that wrap around.", "anchors": ["src/vpx/mesh/walls.rs compute_side_texture_coords"]}
{"id": "C64", "title": "Mesh of a rubber", "statement": "The mesh generated for a rubber is a closed tube around the curve through its drag points: one ring of vertices per curve point, at half the thickness from it, in the frame carried along the curve; then turned about its middle and moved to its height. Its faces use its vertices only, every edge belongs to two faces that run through it in opposite directions, and no mesh is made without thickness or with fewer than two drag points. (False: at height 0, rings behind a sharp right-angled corner have no extent.)", "quantifier": "all rubbers (any drag points, thickness, rotation, height), all detail levels, all floating point arithmetics", "why_tests_cant": "The number of rings and segments is unbounded; a single wrong index opens the surface only for some sizes.", "anchors": ["src/vpx/mesh/rubbers.rs: build_rubber_mesh, generate_mesh, apply_rotation, get_mesh_middle", "src/vpx/mesh/mod.rs: compute_normals"]}
{"id": "C65", "title": "Normals of generated meshes", "statement": "The normal of every vertex of a generated mesh is the unit vector along the sum of the normals of the faces around it, and zero when that sum is zero; positions and texture coordinates stay as they are.", "quantifier": "all vertex lists and all face lists whose indices are in range", "why_tests_cant": "Holds for any mesh; a face counted twice or for a wrong corner shows only on irregular meshes.", "anchors": ["src/vpx/mesh/mod.rs: compute_normals"]}
{"id": "C66", "title": "Mesh of a flat ramp", "statement": "The mesh of a flat ramp consists of a floor and of the walls that have a visible height, right before left. Each is a band along the curve through the drag points with two vertices per curve point: the floor from the right to the left side at the width and height interpolated by the share of the length, a wall from the floor's edge up by its height. Bands are surfaces whose rim goes along one side and back along the other. Faces have three different corners in range. Building a ramp mesh never panics; there is none when both widths are zero or the curve has fewer than two points.", "quantifier": "all ramps (any drag points, widths, heights, wall heights, image alignments), all table sizes, all floating point arithmetics", "why_tests_cant": "Index arithmetic over outlines that run forth and back, for curves of any length.", "anchors": ["src/vpx/mesh/ramps.rs: build_ramp_mesh, build_flat_ramp_mesh, get_ramp_vertex"]}
{"id": "C67", "title": "Mesh of a wire ramp", "statement": "The mesh of a wire ramp consists of one to four wires according to its type, in the order lower right, lower left, upper ones; the lower ones raised by 3, the upper ones by half the vertical wire distance. Each wire is an open tube with one ring per curve point and normals pointing away from its line. Faces are in range, no directed edge is used twice, and apart from the two end rings of each wire nothing is left open. (False: rings of a level wire behind a sharp right-angled corner have no extent.) A wire has 12 sides if it is rendered once, otherwise 6, 8, 10, 11 or 13 as the detail grows to 10; never fewer than 6, and more detail never gives fewer.", "quantifier": "all wire ramps, all detail levels, all floating point arithmetics", "why_tests_cant": "The number of rings, segments and wires varies; an index offset error between wires shows only for some combinations.", "anchors": ["src/vpx/mesh/ramps.rs: build_wire_ramp_mesh, create_wire"]}
{"id": "C68", "title": "Height of a ramp below a point", "statement": "The search for the closest point of a ramp's curve gives the foot of a shortest perpendicular that meets a segment, with the number of the segment, and none if there is none. The height reported for a ramp is the height of the curve there plus the share of the rise that belongs to the length up to the foot, and 0 without a foot. Asking never panics.", "quantifier": "all ramps, all points, all floating point arithmetics with a strict order", "why_tests_cant": "Minimality over arbitrarily many segments.", "anchors": ["src/vpx/mesh/mod.rs: closest_point_on_polyline", "src/vpx/mesh/ramps.rs: get_ramp_surface_height"]}
{"id": "C69", "title": "Mesh of a primitive without its own mesh", "statement": "A primitive that is not meant to use its own mesh is shown as a prism over a regular polygon with its number of sides (none below three): 4n+2 vertices at the documented places with the documented normals and texture coordinates, four faces per side, each with three different corners in range; glued along corners at the same place the outer faces form a closed surface; with inner faces wanted, every face is there from both sides. A primitive meant to use its own mesh is shown with exactly that one. Building the prism never fails. (False: the documented outward normals of the sides point inwards.)", "quantifier": "all primitives, all numbers of sides (u32), both settings for the inner faces, all floating point arithmetics", "why_tests_cant": "The number of sides is unbounded; the wrap from the last side to the first and the offsets between the rings depend on it.", "anchors": ["src/vpx/mesh/builtin_primitive.rs: build_builtin_primitive_mesh, effective_primitive_mesh"]}
{"id": "C70", "title": "The exported OBJ scene says what the table shows", "statement": "Read by the rules of OBJ files, the exported scene has one object per visible shape of the table, in the order of the items and after the playfield, with the name of the shape and exactly its triangles. Each corner of each triangle is at its vertex, moved to its place, scaled to the wanted unit and mirrored as the format needs, with its own texture coordinate and normal, and never refers to a vertex of another object. No line belongs to no object. The export succeeds whenever the meshes can be built and the images converted. A unit of Visual Pinball is 0.53975 mm in every wanted unit. The playfield is a rectangle as large as the table without holes or overlaps, seen from above.", "quantifier": "all tables, all options, all meshes of items whose faces use their own vertices, fewer than 2^32 vertices in all, all floating point arithmetics", "why_tests_cant": "The numbers of vertices run through the whole file: an offset that is wrong after some item shows only behind that item.", "anchors": ["src/vpx/export/obj_export.rs: export_obj, write_block, write_gameitem, write_playfield"]}
{"id": "C71", "title": "Materials of the OBJ export", "statement": "Every material used in the OBJ file has a section in the MTL file with the colours, the highlights, the opacity and the texture of the table's material of that name (any case of ASCII letters, materials of 10.8 first), white without highlights if the table has none. With deduplication no material with the same texture has two sections; without it and without textures every use has its own, as Visual Pinball writes them. If no two different materials go by the same name, the section found by a name is the right one.", "quantifier": "all tables, all options, all uses of materials and textures", "why_tests_cant": "Depends on the history of all the shapes written before.", "anchors": ["src/vpx/export/obj_export.rs: write_mtl_block, mtl_name, material_view_by_name, write_block"]}
{"id": "C72", "title": "Images of the OBJ export", "statement": "With textures every image a shape uses is written to a file with its content, under its name with its extension, and never under a name another image of the export has, even where the case of letters does not matter; no other files are written, and the sections of the MTL file refer to files that were written. Without textures no image is written. Every triangle has a material that has a section.", "quantifier": "all tables, all options, all images and names", "why_tests_cant": "Depends on all the names used before, with collisions between them.", "anchors": ["src/vpx/export/obj_export.rs: extract_texture, write_mtl_block, image_by_name"]}
{"id": "C73", "title": "Place of a primitive in the exported scene", "statement": "A vertex of a primitive is stretched by its size, moved by its translation, turned about z, y and x by its rotation and by its object rotation, and moved to its position. With the same size in all directions all distances grow by that factor and normals stay at right angles to the faces.", "quantifier": "all positions, sizes, rotations, translations and points, over every field (exact numbers), all functions for sine and cosine (with sin²+cos²=1 where needed)", "why_tests_cant": "Products of nine 4x4 matrices in an order that matters only for combined turns.", "anchors": ["src/vpx/math/matrix.rs: Matrix3D", "src/vpx/export/obj_export.rs: primitive_world_matrix"]}
{"id": "C74", "title": "Shapes of an item in the exported scene", "statement": "The shapes of an item are parts it has, in a fixed order and none twice, each with its name, material and texture. Hidden primitives, walls, ramps, rubbers, triggers and plungers, and items without a mesh, give none; flippers, gates, spinners and targets are written whether they are visible or not. Bumpers, gates, kickers, spinners, triggers and plungers are at their centres, at the height of the first wall or ramp named as their surface (any case of ASCII letters) and, for gates, spinners and plungers, their own height above it. Walls, ramps, rubbers and primitives give the meshes made for them. Ramps and rubbers are made with the level of detail the table asks for: its own if it overrides the general one, otherwise 10.", "quantifier": "all tables, all items, all options", "why_tests_cant": "A table of decisions over all kinds of items and all their settings; the height depends on all the other items.", "anchors": ["src/vpx/export/obj_export.rs: write_gameitem, surface_height, write_bumper, write_wall, write_ramp, write_rubber, write_primitive, write_gate, write_kicker, write_spinner, write_hittarget, write_trigger, write_plunger, write_flipper"]}
{"id": "C75", "title": "The exported glTF document is sound", "statement": "Whenever the export of a table as glTF succeeds, the JSON, read by the rules of glTF 2.0, describes one scene. All it refers to is there: buffer views are in the data and do not overlap, every accessor fills its view, every mesh has positions, normals and texture coordinates of the same number and corners in threes, and materials, textures, images, samplers, lights and cameras exist. The extensions in use are declared, and only those. The nodes are a tree: each hangs on exactly one other, all hang on one root, no list of children is empty, and only leaves are moved.", "quantifier": "all tables, all options, all meshes and images, all orders of hash maps, all floating point arithmetics", "why_tests_cant": "Indices and offsets run through the whole file and depend on everything before; the order of groups and layers depends on hash maps.", "anchors": ["src/vpx/export/gltf_export.rs: export_gltf, build_combined_gltf_payload, collect_meshes"]}
{"id": "C76", "title": "The data of the exported glTF meshes", "statement": "The meshes of the file are the collected meshes of the table in order. Their positions are in the wanted unit with y and z exchanged, their normals likewise (zero for what is no number), texture coordinates as they are, and their triangles are turned around, with 16-bit numbers up to 65535 vertices and 32-bit numbers above. Corners are vertices of their mesh. The bounds of a mesh are the least and greatest coordinates. Node k shows mesh k, at the place of the item, hidden exactly if the item is hidden, and no other node shows it.", "quantifier": "all tables, all options, all meshes with at most 2^32 vertices, all arithmetics (bounds: IEEE arithmetic, finite coordinates)", "why_tests_cant": "Offsets depend on all the meshes before; widths of numbers change with the size.", "anchors": ["src/vpx/export/gltf_export.rs: build_combined_gltf_payload"]}
{"id": "C77", "title": "The files of the glTF export hold the document and the data", "statement": "A GLB export writes one file of the given name. Opened by the rules of the GLB container and of glTF (magic word, version, lengths that are multiples of four, a JSON chunk, a BIN chunk, one buffer), it gives exactly the document and the data that were built; the library's own reader agrees. A .gltf export writes the data to a .bin file with the same stem and the JSON to the given name; opened in that directory, following the buffer's URI, they give the document and the data.", "quantifier": "all tables and options whose export succeeds; GLB files below 4 GiB; names without percent sign that are not the name of the .bin file; extra data that JSON can print", "why_tests_cant": "It needs every number, name and list of every document to survive printing, and lengths, padding and names to agree for all sizes.", "anchors": ["src/vpx/export/gltf_export.rs: export_gltf, write_glb", "src/vpx/gltf.rs: write_glb_payload, read_glb_payload"]}
{"id": "C78", "title": "Materials and images of the glTF export", "statement": "In the glTF file of a table, a mesh with an image shows exactly the bytes of the image of the table that the name means (of several the last, ignoring case). A mesh without one has the colour, metal, roughness and blending of the table's material of its name (of several the last). A textured mesh keeps a colour or metal of its material as factors and is blended if the material or the image is see-through. Tinted parts have their tint, balls are polished metal, meshes that let light through transmit what the item says; all of them are as metal and as rough as their material. The playfield, when it is the first to show its image, is as rough as the strength of the table's reflections makes it. Meshes without materials that show the same image share one white material. Every texture is filtered linearly and repeated in both directions, and is called like its image.", "quantifier": "all tables and options whose export succeeds, all collected meshes", "why_tests_cant": "The material of a mesh depends on the order and names of all meshes, materials and images of the table; several maps are filled in several passes.", "anchors": ["src/vpx/export/gltf_export.rs: build_combined_gltf_payload, playfield_material, collect_materials, get_image_bytes, mime_type_for_image", "src/gltf.rs: GltfMaterialBuilder"]}
{"id": "C79", "title": "The items of a table in the glTF export", "statement": "Each item of a table gives in the glTF scene exactly the parts it has, in order and none twice, with the item's name and the part's suffix, material, texture and visibility, in the item's group and layer. Hidden parts are left out unless asked for, and an item that says it is not visible gives nothing then, but for lights and the playfield of a table made before version 1080. Items that stand on something are at their centre, at the height of the wall or ramp of that name. Walls, ramps and rubbers bring the meshes the game builds, primitives their own mesh, and every other part the shape of its kind (the same the game builds, with the item's own numbers) in the item's own colour; a primitive's vertices moved by its position are where the game puts them. The scene holds the items' meshes one item after the other and a playfield unless a primitive is one. Ramps and rubbers are made with the level of detail the table asks for. A primitive lets through the light it says; in a table older than version 1080 the playfield and primitives of opaque materials let none through.", "quantifier": "all tables, items and options; the placement of primitives for all positions, sizes, rotations and vertices with exact numbers", "why_tests_cant": "Sixteen kinds of items with a dozen options each, standing on arbitrary other items; the local matrix and the translation of the node must together equal the game's matrix for all real inputs.", "anchors": ["src/vpx/export/gltf_export.rs: collect_meshes, transform_primitive_vertices, get_layer_name, item_group_info_for, build_implicit_playfield_mesh"]}
{"id": "C80", "title": "Items, layers and lights in the glTF scene", "statement": "Everything an item gives to the glTF scene (its meshes, and its light if its name begins with gi) is one node that holds the item's data: its only node, or a node with the item's name and all of them as children. That node is a child of the node of the item's layer, of which there is one for each layer, below the root, or of the root if the item has no layer. Meshes of no item are at the root or in their layer. Lights of the general illumination are point lights of the scene with their colour, at their place above what they stand on, 10 mm up if they have no height; the root has the table's name and data and holds the table's two lights and the cameras. A light of the general illumination has a tenth of its intensity, limited to 0.01 to 10, and reaches to the farthest point of its outline, or its falloff radius without one. The table's lights have its colour, the brightness of its scales, stand above its middle a third and two thirds down, and reach as far as it says. (False: they are limited to 100 of the wanted unit, so how far they reach depends on the unit.)", "quantifier": "all tables whose export succeeds, all items whose name no other item has, all options", "why_tests_cant": "Grouping and layering depend on all items of the table, on how many parts each gives and on the order of hash maps.", "anchors": ["src/vpx/export/gltf_export.rs: build_combined_gltf_payload, get_layer_name, item_group_info_for, calculate_light_range"]}
{"id": "C81", "title": "The meshes made of items can always be exported", "statement": "Every corner of every triangle of the meshes the library makes of bumpers, gates, hit targets, kickers, spinners, triggers, flippers, plungers, balls, lights, flashers and decals is a vertex of that mesh, whatever the values in the item. With these meshes the OBJ export has the shapes of the items, and the glTF export has only indices that are in range, if the meshes stored in the table's primitives are in order. A mesh of a flasher or of the insert of a light is not made only because the subdivision of its outline does not end; it does not panic.", "quantifier": "all items with all values (any numbers, NaN and infinities included, any tip shape text), all tables, all options of the exports, any sine, cosine, arcsine and number parser", "why_tests_cant": "The tables hold thousands of indices, and the plunger's tip and spring have as many rings as the item asks for; a viewer fails on the first index out of range.", "anchors": ["src/vpx/mesh/bumpers/mod.rs: build_bumper_meshes", "src/vpx/mesh/gates/mod.rs: build_gate_meshes", "src/vpx/mesh/hittargets/mod.rs: build_hit_target_mesh", "src/vpx/mesh/kickers/mod.rs: build_kicker_meshes", "src/vpx/mesh/spinners/mod.rs: build_spinner_meshes", "src/vpx/mesh/triggers/mod.rs: build_trigger_mesh", "src/vpx/mesh/flippers/mod.rs: build_flipper_meshes", "src/vpx/mesh/plungers/mod.rs: build_plunger_meshes", "src/vpx/mesh/balls/mod.rs: build_ball_mesh", "src/vpx/mesh/lights/mod.rs: build_light_meshes", "src/vpx/mesh/flashers/mod.rs: build_flasher_mesh", "src/vpx/mesh/decals/mod.rs: build_decal_mesh"]}
{"id": "C82", "title": "The shapes of bumpers, gates, targets, kickers, spinners, triggers, balls, bulbs and decals", "statement": "Each of these items gets the meshes its visibility switches and its type ask for, each a table of the library with the same triangles and texture coordinates and every vertex placed anew: turned by the item's angle and made as large as its radius, length, scale or size says (caps of bumpers twice as wide and one height up, sockets 5 up, drop and hit targets stretched before they are turned, WireB and WireC triggers tilted, wires thickened along their normals). In exact and in real numbers spinners, gates, kicker bodies, balls and bulbs are similar to their tables with the item's size as the factor, and their normals keep their lengths and stay at right angles to the surface; bumpers are similar seen from above, and their heights are scaled by their own factor. A decal is the rectangle of its width and height turned by its rotation, with the whole image on it.", "quantifier": "all items of these kinds with all values, all vertices of all tables; exact numbers of any field, real numbers", "why_tests_cant": "A unit test compares some vertices of some items; a swapped axis, order of turning and scaling or sign only shows for other angles and sizes.", "anchors": ["src/vpx/mesh/bumpers/mod.rs: build_bumper_meshes", "src/vpx/mesh/gates/mod.rs: build_gate_meshes", "src/vpx/mesh/hittargets/mod.rs: build_hit_target_mesh", "src/vpx/mesh/kickers/mod.rs: build_kicker_meshes", "src/vpx/mesh/spinners/mod.rs: build_spinner_meshes", "src/vpx/mesh/triggers/mod.rs: build_trigger_mesh", "src/vpx/mesh/balls/mod.rs: build_ball_mesh", "src/vpx/mesh/lights/mod.rs: build_light_meshes", "src/vpx/mesh/decals/mod.rs: build_decal_mesh"]}
{"id": "C83", "title": "The shape of a flipper", "statement": "A visible flipper has a bat, and a rubber if its thickness is positive. Whatever the radii, every vertex of both lies on one of two circles: that of the base, with the base radius, around the pivot, or that of the tip, with the end radius, as far from the pivot as the flipper is long; the bat's radii are smaller by the thickness of the rubber. In real numbers the two sides are tangents of both circles. The flipper is turned to its start angle without changing distances, the bat has the flipper's height, the rubber its own height and place. Taken as one mesh, it has the triangles of both, moved to the center of the flipper. The sine of the angle of the tangents is limited to -1 to 1.", "quantifier": "all flippers with all values; all 104 vertices of the table, in IEEE arithmetic with any sine, cosine, arcsine and arctangent; real numbers", "why_tests_cant": "The vertices of the ends are found by comparing 104 vertices with 52 points in 13 rounds, each round working on what the one before left; a missed point, round or end leaves a vertex at a place that depends on the radii.", "anchors": ["src/vpx/mesh/flippers/mod.rs: build_flipper_meshes, build_flipper_meshes_unchecked, apply_fix, vertex_matches"]}
{"id": "C84", "title": "The shape of a plunger", "statement": "A visible plunger of flat type is one closed tube; one of the modern or custom type has a rod, a spring, a collar and a tip. Rod, collar and tip are surfaces of revolution around the axis of the plunger: 16 points on each ring at exactly its radius, each ring joined with the next by two triangles per neighbours, normals away from the axis. The tip goes through the points of its text, whatever white space it has, put in order, points at the same place in the order of the text; the collar follows after the gap, the rod goes from the collar to the height of the plunger. The spring is a wire with 24 points per turn around the axis from the collar on, with circles of 8 vertices across it at the radius of its gauge.", "quantifier": "all plungers with all values and all tip texts, all vertices and triangles (with 16-bit indices where they fit); exact numbers for the circles", "why_tests_cant": "Rings, strips and coils are made by nested loops with running indices; an index off by one, a ring joined to the wrong one or a wrong radius shows only in some of the thousands of triangles.", "anchors": ["src/vpx/mesh/plungers/mod.rs: build_plunger_meshes, parse_tip_shape, generate_flat_rod_mesh, generate_rod_mesh, generate_spring_mesh, generate_ring_mesh, generate_tip_mesh, connect_rings, add_disc_cap"]}
{"id": "C85", "title": "The shapes of flashers and of the inserts of lights", "statement": "A flasher or the insert of a light is the area inside its outline: one vertex for each point of the outline, filled with the triangles of C60, seen from the middle of the smallest box around it, where it stands: flashers at their height, inserts on the table. Flashers are turned about x, y and z by their angles, without changing distances, and their normals stay at right angles to them. The image of a flasher is over its box, or over the table if it is aligned to the world; that of an insert over the table, and an insert without an image has a circle around the centre of the light that reaches to its farthest point. There is no mesh exactly for fewer than three control points, an outline of fewer than three points or one that cannot be filled, and for lights on the backglass.", "quantifier": "all flashers and lights with all control points and values, all vertices; the box in IEEE arithmetic; exact numbers for the turns", "why_tests_cant": "The outline, the box, the triangulation and the turns come from four functions; a swapped order of turns, a box that starts at zero or a vertex moved before its texture coordinates are taken shows only for some shapes.", "anchors": ["src/vpx/mesh/flashers.rs: build_flasher_mesh, apply_rotation", "src/vpx/mesh/lights/mod.rs: build_light_insert_mesh"]}
{"id": "C86", "title": "Meshes go through the browser bindings", "statement": "mesh_to_obj accepts exactly the arrays that describe a mesh: three positions, two texture coordinates and three normals for each vertex and three indices for each triangle, all below the number of vertices; otherwise it reports an error and never panics. Giving what it wrote to obj_to_mesh with the same setting gives the same name, arrays and indices back. What extracting a table wrote for a primitive is read to the vertices and triangles of the primitive, and mesh_to_obj writes the same lines for these. The arrays of obj_to_mesh always belong together. Of a file by another program with polygons or separate numbers for the parts of a corner, every corner of a triangle has the position, texture coordinate and normal named in the file, polygons cut into fans, and a number outside the file is an error. The midpoint is half way between the least and the greatest coordinate on each axis. generate_builtin_primitive gives the prism of C69, and an error for fewer than three sides.", "quantifier": "all arrays, lines of OBJ files, both coordinate systems, all numbers of sides", "why_tests_cant": "Arrays with wrong lengths, polygons with shared corners and all values of coordinates are too many to test; a swapped corner or a sign changed on one way only shows for some meshes.", "anchors": ["src/wasm.rs: obj_to_mesh, mesh_to_obj, PrimitiveMesh::midpoint, generate_builtin_primitive", "src/vpx/obj.rs: read_obj_from_reader"]}
{"id": "C87", "title": "Extracting a table in the browser and assembling it again", "statement": "extract gives the files of the expanded table, all below /vpx and no path twice. Giving these files to assemble, in any order, gives the bytes of a table that is the same as the one extracted, if images, sounds and fonts have different file names and everything can be in files (as in C57); reading these bytes gives that table.", "quantifier": "all tables that can be expanded, all orders of the files", "why_tests_cant": "The object that carries the files has no fixed order, and every file must be found again whatever it holds.", "anchors": ["src/wasm.rs: extract, assemble", "src/vpx/expanded/mod.rs: write_fs, read_fs", "src/filesystem.rs: MemoryFileSystem"]}
{"id": "C88", "title": "The cameras of an exported scene", "statement": "A glTF export has three cameras, for the desktop, full screen and the full single screen, each from the settings of its own view, in nodes directly below the table. Fields of view are at least one degree. With real numbers, the rotation of a camera is a unit quaternion that turns it down from the horizontal by the angle of its look-at value (0 looks straight down, 100 along the table) and not to a side; unmoved, a camera looks at the centre of the table from 0.47 times the least distance at which the box of the table, tilted by that angle, fits in a 16:9 picture (times the mean scale in the legacy mode); the offsets move it to the right, along its view and up.", "quantifier": "all tables, all settings; real numbers for directions and distances", "why_tests_cant": "Directions and distances depend on continuous settings; tests use a few of them and compare with saved numbers.", "anchors": ["src/vpx/export/camera.rs: GltfCamera::all_from_vpx, from_view_settings, fit_camera_to_vertices, ViewSettings, TableBounds", "src/vpx/export/gltf_export.rs: build_combined_gltf_payload"]}
{"id": "C89", "title": "Derived meshes beside the files of a table", "statement": "Expanding a table with derived meshes writes, beside the files of an expansion without them, for every wall, ramp, rubber, flasher, flipper, bumper, hit target, gate, spinner, trigger, light and plunger the mesh files of what can be computed for it, named after the item's own file, the part and `-generated`, in the chosen format. If every mesh can be computed it succeeds whenever the plain expansion does, changes none of the plain files, and reading the directory gives the same table: the derived files are never read (the derived files themselves are described for tables without an item called `json`). From a derived file the mesh that was computed is read again: for drawn items (walls, ramps, rubbers, flashers) bit for bit from glTF and GLB; for the others all but the normals, and from OBJ every vertex whose flipped texture coordinate has a text.", "quantifier": "all tables that can be expanded, all formats, all directories, all meshes", "why_tests_cant": "Names of items are free text, so that a derived file could take the place of another item's file or be read as one; tests expand single tables.", "anchors": ["src/vpx/expanded/mod.rs: write_fs, ExpandOptions::generate_derived_meshes, generated_mesh_file_name", "src/vpx/expanded/gameitems.rs: write_gameitems", "src/vpx/expanded/primitives.rs: write_wall_meshes and its siblings", "src/vpx/mesh/lights/mod.rs: build_light_meshes"]}
{"id": "C90", "title": "Converting the images of a table file to WebP", "statement": "`images_to_webp` changes nothing in a file but its images, whether it succeeds or fails, and the checksum of the file checks as before. Afterwards the table is read as before but for its images: up to the point where the call stopped, every PNG image with a readable PNG file and every BMP image with a bitmap is now an image with a WebP file of the same pixels, under the path with its extension replaced and with every other property kept; all others are the same. It succeeds if every bitmap has enough data and every picture can be encoded; the report then lists images in order; and calling it again changes nothing.", "quantifier": "all table files; all images without both a bitmap and a file, with a dot in the path; all points of failure", "why_tests_cant": "Files hold any number of images in any mix of formats and damage, and the call can stop at any of them; tests convert one.", "anchors": ["src/vpx/mod.rs: VpxFile::images_to_webp, images_to_webp, write_image, ImageToWebpConversion", "src/vpx/image.rs: ImageData::change_extension, ext, vpx_image_to_dynamic_image, swap_red_and_blue"]}
{"id": "C91", "title": "Any history of calls on the files of a directory", "statement": "After any sequence of the calls that take the name of a table file (write, make a new table, read, verify, ask for, set and release the lock, extract the script, import a script, compact) in any order and on any files of a directory, the directory holds what a simple description of the calls says: every file not named by a call nor by the script beside it is untouched; each table is the one last written, with the script last imported and the lock last set; a script file has the text of the table it was extracted from; a call on a file that is no table fails and changes nothing; and the answers of the calls are those of the description. If the program stops in the middle of a call, only the files this call writes can differ from before. An unedited script that is extracted and imported into another table carries over unchanged.", "quantifier": "all directories; all sequences of calls; all points at which the program stops", "why_tests_cant": "Effects of calls interact over the whole history (a lock after an import after a compaction, two tables with the same script file); tests run one call on one file.", "anchors": ["src/vpx/mod.rs: open, open_rw, VpxFile::is_locked, lock, unlock, read, write, new_minimal_vpx, verify, extractvbs, importvbs, compact, vbs_path_for, ini_path_for, path_for"]}
{"id": "C92", "title": "Generated meshes have their shapes, apart from rounding", "statement": "Calculated with real instead of rounded numbers, the mesh generators give the shapes they stand for. Every ring of a wire or rubber is a regular polygon in a circle of the given thickness around a point of its line, in the plane perpendicular to the line, if the line does not turn by a right angle. The two sides of a ramp are half its width away from the lines of both neighbouring steps, and straight across at its ends, if its curve does not turn back on itself. The point below a point is the nearest of its line. The rotation of a rubber turns about the x, the y and the z axis and keeps lengths and angles. Normals of faces have length one, are perpendicular to their edges and point to the side the corners are counterclockwise from; normals of vertices are their mean direction; normals of walls are those of their faces, and between both at smooth points. The prism of a primitive is regular, its sides at distance one half. (False: a level wire, and a rubber at height 0, has no extent behind a sharp right-angled corner; where a ramp turns back on itself its floor is thousands of units away; the normals of the sides of the prism point inwards.)", "quantifier": "all points, directions, angles, widths and thicknesses; all lengths of the lines", "why_tests_cant": "Distances and angles are statements about all curves; a test compares the coordinates of some mesh with numbers that the same formulas gave before.", "anchors": ["src/vpx/math/vec.rs: get_rotated_axis, Vec2::normalize, Vec3::normalize, Vec3::cross", "src/vpx/mesh/ramps.rs: get_ramp_vertex, create_wire", "src/vpx/mesh/rubbers.rs: generate_mesh, apply_rotation", "src/vpx/mesh/mod.rs: compute_normals, closest_point_on_polyline", "src/vpx/mesh/walls.rs: build_side_mesh", "src/vpx/mesh/builtin_primitive.rs: build_builtin_primitive_mesh"]}
{"id": "C93", "title": "The record reader and writer, used directly", "statement": "The record reader and the record writer are public and can be called in any order. (1) Any history of reading calls that count what they read returns exactly the values that stand in the unread bytes of the current record, never a byte of another record, and panics when the record has too few bytes. (2) Whatever was read of a record by such calls, next goes to the start of the following record, also where integer overflow is not checked. (3) A stream of records is visited in order, each with its own bytes, and the end is reported after the last one. (4) The calls for raw bytes, and the search for a mark, return the bytes they name. (5) Any history of writing calls leaves the records that were ended, each with its name, size and bytes, and the open one; it panics for a name of more than four bytes, a record of 2^32 bytes or more and a text that cannot be encoded, and only then. (6) Values of all kinds written in records are read back. (False: where overflow is not checked a call that reads over the end of the record returns bytes of the following one; a last record without bytes and without an end record is not reported; the raw bytes of the last record are refused; after the calls that do not count, the next record is missed.)", "quantifier": "all data, all histories of calls, all values, builds with and without overflow checks", "why_tests_cant": "The methods keep two counters that must stay in step through any order of calls; tests call each method on a short record.", "anchors": ["src/vpx/biff.rs: BiffReader, BiffWriter"]}
{"id": "C94", "title": "An open table file answers as the table in it", "statement": "A table that can be written is in the file that is written. For a file that holds a table, opened for reading and writing, every call of the handle answers as that table says and leaves the table it should: reading returns the part, saving game data replaces the game data and nothing else, lock and unlock answer whether they changed the lock, converting images replaces the images it converts and stops only at a picture that cannot be encoded or where the game data counts an image that is not there; so does any history of calls. The counts in the game data decide how many elements are returned: a count that is too high makes the call fail, a count that is too low hides elements, and saving the former game data brings them back. Reading the whole table is the same as reading its parts, for any file. (False: a save that fails leaves the table in the file. Game data that cannot be encoded makes the save panic after the stream was emptied; from then on every call that needs the game data panics, until game data is saved that can be stored.)", "quantifier": "all tables, all files that hold one, all histories of calls, all game data", "why_tests_cant": "The calls share one file whose streams refer to each other by counts and a signature; tests call each method once on one table.", "anchors": ["src/vpx/mod.rs: VpxFile, write_game_data, read_vpx"]}
{"id": "C95", "title": "What the triangles of an outline cover", "statement": "Apart from rounding, the triangles for the top of a wall, a flasher or a light surface cover exactly what is between the outline and the outline of the corners that are left over: whichever outline of three or more points it is, also one that crosses itself, no triangle is turned over, a point that is on no line through two corners is in as many triangles as the outline goes around it more often than the rest, and the areas of the triangles add up to the area between them. With two triangles fewer than points nothing is left over, so a point that the outline goes around once is in exactly one triangle and a point it does not go around is in none. A strictly convex outline, in either direction, always gets two triangles fewer than points. (False: every outline that does not cross itself gets two triangles fewer than points, even if no three of its corners are on a line. See C95_overlooked_side_counterexample.)", "quantifier": "all outlines in the plane with real coordinates, all points", "why_tests_cant": "Whether triangles overlap or leave gaps is about every point of the plane and every outline; tests triangulate a few outlines and count.", "anchors": ["src/vpx/mesh/walls.rs: triangulate_polygon, advance_point", "src/vpx/mesh/mod.rs: polygon_to_triangles, is_clockwise, advance_point"]}
{"id": "C96", "title": "How far rounding takes the vertices of a mesh from where they should be", "statement": "With the IEEE-754 single precision arithmetic of the code, and sines and cosines that are right to 2^-23, the vertices of the meshes made from tables differ from the exactly turned, stretched and moved vertex of the table by at most a stated multiple of the size of the part: balls, bulbs, bumpers, spinners, hit targets, gates, kickers, triggers (the wires tilted and made thicker along their normals), decals, and primitives with their six rotations. A flasher and the insert of a light stand, up to rounding, at the middle of the box around their outline, and their vertices differ by such a multiple from the points of the outline, seen from that middle and, for flashers, turned about the x axis, the y axis and the z axis. The points of every ring of the rods, the collar and the tip of a plunger differ by such a multiple from 16 points at equal angles on a circle around its axis, their normals by such a multiple divided by the radius from the directions away from the axis, and the middles of the discs that close the rods from points of the axis; so do the vertices of a flipper from points of the circle of its base or of its tip, which the rubber surrounds with the radii of the flipper, made higher and turned by its angle and half a turn; its normals are turned in the same way. The coordinates are finite, never infinite or NaN. The normals that are only turned are as close to the exactly turned ones; those of gates and triggers, which the code divides by their calculated length, are as close to the exact unit vectors, and the tables of the program have normals of about the length one. On a table of ordinary size - sizes up to 1000 units, angles up to one turn - the difference of a ball, bumper, hit target or kicker is less than a fiftieth of a unit. Every single operation gives a number that no other single precision number is closer to the exact result than.", "quantifier": "all finite sizes and angles up to the stated bounds, all tables, all sine and cosine functions right to 2^-23 (for flippers: all arc tangents and arc sines in their ranges)", "why_tests_cant": "An error bound is about every size and angle; tests compare a few vertices with a tolerance.", "anchors": ["src/vpx/mesh/*/mod.rs: build_bumper_meshes, build_spinner_meshes, build_hit_target_mesh, build_gate_meshes, build_kicker_meshes, build_trigger_mesh, build_ball_mesh, build_light_meshes, build_decal_mesh", "src/vpx/mesh/flashers.rs: build_flasher_mesh; src/vpx/mesh/lights/mod.rs: build_light_insert_mesh", "src/vpx/mesh/plungers/mod.rs: build_plunger_meshes; src/vpx/mesh/flippers/mod.rs: build_flipper_meshes", "src/vpx/export/obj_exporter.rs and src/vpx/gltf: vertices of primitives", "src/vpx/math/matrix.rs: Matrix3D, Vertex3D"]}
