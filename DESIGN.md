# Formal model of francisdb/vpin in Lean 4

`properties.jsonl` lists the properties, `MANIFEST.json` the theorems that prove them,
`seeded/LOG.jsonl` the wrong programs they were tested against.

## Where things are

| directory | contents |
|-----------|----------|
| `lean/Verif/Model` | the code, function by function; every definition cites the file and lines it models |
| `lean/Verif/Spec` | vocabulary of the statements, independent of the model's helpers |
| `lean/Verif/Props` | the property theorems `Cnn_*`, each with a concrete case that meets its hypotheses |
| `lean/Verif/Lemmas` | everything in between |
| `tools` | `mods.sh` and `manifest.py` write `Verif.lean` and `MANIFEST.json`; `mutate.py` and `mutlog.py` test the theorems against wrong programs; `axioms.sh` prints the axioms of every property theorem; `cites.py` lists definitions of the model without a citation of /repo |

`_partial` in the name of a theorem says that a part of the property is missing;
`_counterexample` that the theorem shows, with a concrete case, where the code does *not* have the property.

## Approach

The model is a set of total, computable Lean functions that follow the Rust functions of /repo one by one.

* **Bytes** are `UInt8`, file contents are `List UInt8`. `u16/u32/u64` are Lean's fixed width integers, `i32` is
  `Int32`.
* **Floating point numbers** are their bit patterns (`UInt32`/`UInt64`). Most of the code only stores, loads
  and compares them. Where it calculates, there are two kinds of models:
  exact IEEE-754 operations, defined with integers and one explicit rounding (quantisation, conversions f32/f64,
  the flipped texture coordinate, the text of numbers); and, for the mesh generators, *any* arithmetic: a class
  `Arith` with operations and no laws, so a theorem holds whatever the rounding, and whatever the library's
  `sin`, `cos` and `powf` do. `ieee sin cos pow : Arith` is the instance with correctly rounded operations;
  concrete cases are calculated in it.
* **Strings** are `List Char` (a Lean `Char` is exactly a Unicode scalar value, like a Rust `char`).
* **Panics** are explicit error values (`Err.panic`). A `Result::Err` is `Err.io`. Indexing a list goes through
  `getOrPanic`.
* **Loops** that are not over a finite range take a fuel argument; running out of fuel is a third error value,
  `Err.fuel`. For the record loops it is proved that it never happens (C07). For the recursive subdivision of
  curves it can happen, and this is one of the findings (C61).
* **Tags** (four bytes, cut at the first NUL) are represented by the little-endian number of the cut and
  zero-padded bytes; this is injective on cut tags, so equality of numbers is equality of the Rust strings.
* **`match tag { "A" => .., "B" => .., _ => .. }`** is an association list from tags to field handlers; a tag that
  is not in the list runs the default arm. The writer of the same structure is a *separate* list of write operations
  in the order of the Rust code, so a disagreement between reader and writer is representable in the model.
* **The compound file** (crate `cfb`) is a finite tree of storages and streams.
* **The file system** is a map from paths to contents. Programs that change it are lists of steps (`FsStep`), so
  that a crash point is a prefix of the list and a schedule of parallel tasks is an interleaving of their lists.
* **JSON** is a tree; `serde` attributes (`rename`, `default`, `skip_serializing_if`, ..) are codecs over it.

## Property by property

"RT" = round-trip law, "INV" = invariant over operation lists, "REF" = refinement to a smaller specification,
"DEC" = decision logic.

| id | what is modelled | how it is proved |
|----|------------------|------------------|
| C01 | BiffWriter and BiffReader state machines | RT, induction over the list of records |
| C02 | primitive getters/putters | RT per primitive, arithmetic on bytes |
| C03 | get_string/write_string, latin-1 | RT + exact characterisation of lossy cases |
| C04 | UTF-16LE encode/decode | RT by induction on the string, rejection lemmas |
| C05 | UTF-8 decode/encode, StringWithEncoding, CODE record | RT in both directions |
| C06 | handler tables and default arm | generic insertion lemma over record streams; partial: see below |
| C07 | record loop | progress measure: fuel is never exhausted |
| C08 | DragPoint sub-stream, child reader | RT, induction over the list of points |
| C09 | all 21 item kinds | RT, one theorem per kind and one for the enum |
| C10 | type dispatch | RT/DEC over all u32 |
| C11 | all item kinds | write(read(write x)) = write x, iterated |
| C12 | GameData reader/writer | RT over all versions |
| C13 | EFSS placement | exact condition, negation with witness; partial: see below |
| C14 | collections, custom info tags | RT |
| C15 | ImageData | RT under conditions, negation witnesses |
| C16 | SoundData positional format | RT with explicit conditions |
| C17 | WavHeader | RT |
| C18 | write_sound/read_sound | RT with explicit conditions |
| C19 | Material, SaveMaterial, SavePhysicsMaterial | RT |
| C20 | RenderProbeWithGarbage | RT |
| C21 | TableInfo over the compound file | RT under conditions on the names, negation otherwise |
| C22 | read_vpx/write_vpx over the compound file | RT composed from the above |
| C23 | add_game_item, add_or_replace_image, set_script | INV |
| C24 | lock/unlock/is_locked | INV/REF to a one-bit specification |
| C25 | write_gamedata, importvbs | frame theorem over histories |
| C26 | verify, generate_mac, write_mac | DEC over histories, any hash |
| C27 | generate_mac | congruence theorem over pairs of files |
| C28 | extractvbs, importvbs | RT/DEC |
| C29 | compact_cfb as a list of file system steps | invariant over every prefix |
| C30 | compat.rs | DEC |
| C31 | quantize.rs, exact rounding | RT, monotonicity, bounds |
| C32 | enum conversions | RT/DEC over all u32 |
| C33 | color.rs | RT |
| C34 | F32WithNanInf | RT over all bit patterns |
| C35 | JSON forms of all item kinds, index info | RT per kind |
| C36 | FileNameGen | INV by induction over the list of names |
| C37 | write_gameitems as parallel tasks | every interleaving has the result of the sequential run |
| C38 | validate_part_group_order | DEC, induction over the list |
| C39 | MemoryFileSystem, several open writers | REF to a map |
| C40 | write_images/write_sounds names | INV over the set of used names |
| C41 | write_fonts/read_fonts | RT for different file names, which font wins otherwise |
| C42 | mesh file names | RT under conditions on the names |
| C43 | blocks of compressed bitmaps | RT |
| C44 | swap_red_and_blue | involution |
| C45 | images/materials reported by an item | DEC |
| C46 | font style flags | RT |
| C47 | set_/get_ accessors | RT/frame |
| C48 | index width | RT |
| C49 | version.rs | RT |
| C50 | ImageDataJson | RT |
| C51 | font.rs | RT |
| C52 | obj.rs writer and reader, expanded/primitives.rs | RT, with the exact set of numbers that change |
| C53 | the comment with the exact texture coordinate | RT over all bit patterns; exactness of the flipped number by size (24 bits against 53), 17 digits enough from one half on; assumes of std that printing with p digits is off by at most half a digit (`PrecText`) |
| C54 | animation frames in OBJ files | RT |
| C55 | gltf.rs: GLB and glTF writer and reader | RT |
| C56 | OBJ reader for files of other programs | REF to the corners named by the face lines |
| C57 | write_vpx/read_vpx of the expanded form | RT composed from the JSON, image, sound, font and mesh files |
| C58 | paths of all written files | INV over the steps |
| C59 | which files are created only if they do not exist | INV over the steps |
| C60 | polygon_to_triangles | conservation of edges and signed area, by induction over the cuts |
| C61 | get_rg_vertex_2d/3d | REF to the list of control points; no panic; endless recursion for NaN |
| C62 | walls.rs | REF to an extruded outline; closed but for the bottom |
| C63 | compute_side_texture_coords | REF to linear interpolation between marks |
| C64 | rubbers.rs | REF to a tube; closed surface |
| C65 | compute_normals | REF to the sum over the faces around a vertex |
| C66 | ramps.rs, flat | REF to bands along the curve; their rims |
| C67 | ramps.rs, wires | REF to open tubes; their rims |
| C68 | closest_point_on_polyline, get_ramp_surface_height | least distance over all segments |
| C69 | builtin_primitive.rs | REF to a prism; closed surface after welding |
| C70 | obj_export.rs, OBJ file | REF: a small reader by the rules of OBJ files (`Spec/Scene`) gives the shapes |
| C71 | obj_export.rs, MTL file | REF to the sections of the uses; INV over the shapes |
| C72 | obj_export.rs, images | INV over the shapes |
| C73 | matrix.rs, placement of primitives | REF to stretch, move and turn, over every field |
| C74 | obj_export.rs, shapes of items | decision table |
| C75 | gltf_export.rs, the document of a table | invariants over the loops; the JSON read back by a reader written from the glTF standard |
| C76 | gltf_export.rs, the data of the meshes | REF: data read back from the file are the collected meshes; bounds in IEEE arithmetic |
| C77 | gltf_export.rs, gltf.rs, the files of the export | RT: files opened by a reader written from the GLB and glTF rules; every document is printable JSON |
| C78 | gltf_export.rs, materials, textures and images | invariants over the passes that fill the maps; decision table |
| C79 | gltf_export.rs, what each item gives; primitive placement | case analysis of all kinds; matrices over a field |
| C80 | gltf_export.rs, groups of items, layers, lights and cameras in the scene | slots of each name followed through the folds; every node has one place |
| C81 | mesh/*: all generators of item meshes, with their vertex tables; flasher and light insert | tables checked by the kernel; rings and springs by induction; the exports' theorems with these meshes |
| C82 | mesh/{bumpers,gates,hittargets,kickers,spinners,triggers,balls,lights,decals} | one formula for any numbers: connected with the f32 meshes, and turns and stretches over a field and over the reals |
| C83 | mesh/flippers | invariant over the 13 rounds of comparisons; all table vertices found, by the kernel; tangents over the reals (Mathlib) |
| C84 | mesh/plungers | the rings and coils by induction over the loops, with every index; text of the tip by induction; insertion sort is ordered and stable in IEEE; circles and frames over any field |
| C85 | mesh/flashers, mesh/lights | case analysis, the box by induction over the points in IEEE, turns over any field |
| C86 | wasm (meshes), obj | round trip over lines and arrays, decision logic for what is accepted, midpoint by induction in IEEE |
| C87 | wasm (tables) | C57 for any file system with the same files, permutation of files without repeated paths |
| C88 | export/camera | one function over any numbers: real numbers (Mathlib) for turns and the least distance, f32 for settings and the file |
| C89 | expanded/primitives, mesh/lights, vertices/gltf | names of derived files apart from all others by their dash, then C57; agreement of two runs outside those names; round trip of one mesh file |
| C90 | vpx/mod (images_to_webp), image | writes stay on image paths (induction over the loop), then the table is read image by image; picture libraries are functions with laws |
| C91 | vpx/mod (all calls that name files) | refinement: a directory of compound files against an abstract directory of tables and texts, by one case per call and induction over the history; crash frame over the states of each call |
| C92 | vec.rs, ramps.rs, rubbers.rs, walls.rs, builtin_primitive.rs, compute_normals, closest_point_on_polyline | the calculations for any numbers: equal to those of the models with the numbers of the code, and Euclidean geometry with Mathlib's real numbers (induction over the line for the carried frame) |
| C93 | biff.rs: `BiffReader` and `BiffWriter` as public interfaces | the reader with position and remaining count, with overflow checked or wrapping; every counted method refines a parser of the unread bytes of the record (induction over the history); position plus remaining is an invariant modulo 2^64, so `next` is the same; the writer refines finished bytes plus an open record; each method agrees with the reader of Model/Biff |
| C94 | mod.rs: `VpxFile` | each method with the file afterwards, also when it fails; the file refines an abstract table (streams of each list are its elements and there are no more); induction over the history; a save that panics while encoding leaves an empty stream, so the converse is refuted |
| C95 | triangulate_polygon, polygon_to_triangles | the triangulations for any numbers, equal to the models of C60 with the numbers of the code; with Mathlib's real numbers: sums over the edges of the triangles (winding numbers, areas) reduce to sums over the rims; for convex outlines the first corner is always an ear, by induction over the cuts |
| C96 | vertices of the meshes made from tables, of primitives, flashers, inserts, plungers (without the spring) and flippers | each IEEE operation is a nearest number (from the definition of the rounding); errors of several operations by counting roundings, relative to the sizes of the numbers; for primitives, rows of the matrix product with the length of the exact row as the scale; for normals, the error of the square root and of the division; the sizes of the tables of the code by kernel computation |

(Later properties are described in `properties.jsonl` in the same way.)

## Partial and false

Where a property is false of the code, the theorem has the exact condition under which it is true, and a
counterexample theorem shows that the condition is needed.

* **C06** (partial): true for every item kind, every other structure that is read by a record loop, and game data.
  False directly behind the `BOTM` record of a table of version 1080
  (`C06_gamedata_behind_botm_counterexample`), and not claimed inside an image between `BITS` and `ALTV`, where
  there are no records.
* **C13** (partial): `C13_rewrite_identical_iff` gives the exact condition; a camera layout mode in a table of
  version 1080 moves the `EFSS` record.
* **C15** raw bitmap that contains the letters ALTV; **C16** sounds below version 1031 lose the volume fields;
  **C17** stray extension size; **C18** byte rate that does not fit, formats other than PCM;
  **C21/C22** names that collide with the fixed streams, empty custom info tag; **C27** no boundaries between the
  fields under the checksum; **C29** a path that already ends in "compacting";
  **C33** a text of other than ASCII characters in place of a colour aborts the program; **C34** plain number fields lose
  NaN and infinities, and the expanded form cannot be read; **C37**, **C40**, **C41**, **C42**, **C58**,
  **C59** special names (`X_anim_0`, `json`, `_dedup1`, names with slashes), scripts and meshes overwritten;
  **C52** one-ulp changes by double rounding; **C54** NaN normals; **C55**, **C56** damaged files abort the
  program; **C57** stale files in the directory; **C60** a simple polygon without triangles; **C61** NaN
  coordinates; **C62** counterclockwise outlines; **C63** coinciding drag points; **C64** coinciding drag points
  abort the program; **C68** no height beside an outer corner; **C70** smoothing is never switched off again, a part
  without a material takes over that of an unrelated item, indices of a primitive out of range reach into other
  objects; **C71** different materials under the same name; **C72** an image named in different cases of letters is
  written once per spelling; **C73** normals of a primitive with different sizes; **C76** floats that are not aligned,
  null bounds of empty meshes; **C77** a .gltf export named `x.bin` overwrites its own data, a percent sign is not
  escaped in the URI; **C78** a missing image takes away the material too, meshes with the same image share the
  roughness of the first one, an item with the material name of the playfield shows the playfield image, a playfield
  image without data panics, an image with file and bitmap is labelled PNG; **C79** hidden lights are exported unasked,
  hidden gates are left out although asked for; **C80** items of one name are put in the node of the first;
  **C81** springs of more than 8191 segments and tips of more than 2048 points overflow their 16-bit indices;
  **C82** normals of stretched bumpers and hit targets are wrong, turned triggers with two scales are sheared; **C83**
  normals of flippers ignore the radii, and exported flippers ignore the surface they stand on; **C84** the cap of a
  plunger's rod is at its wrong end, the spring ends one step behind the rod, a tip with a last place of 0 has NaN texture
  coordinates; **C85** the image of an insert assumes a table that begins at 0, 0; **C86** `obj_to_mesh` does not check
  the indices of files with plain triangles only; **C88** the y offset of a legacy camera does not move it up on the
  screen, and the camera of a new table does not show all of it; **C89** derived meshes of parts that are not drawn have 32
  zeros as the raw form of each vertex: the crate's own readers take zero normals from glTF, and vertices at the origin
  from OBJ where `1 - tv` has no exact text; they are sized for a table of 952 by 2162; **C90** an image called BMP without a
  bitmap is reported as converted, a path without a dot keeps its extension over WebP data, and the MD5 hash of an image
  stays that of its old data; **C91** tables whose names differ only in the extension share one script file, and a table
  called `x.vbs` is replaced by its own script when that is extracted with overwriting; **C92**, **C64**, **C67** a level wire,
  and a rubber at height 0, has rings without extent behind a sharp right-angled corner; **C66** where the curve of a ramp
  turns back on itself, the code takes the place of the point for the vector across, and the floor is thousands of units
  away; **C69** the normals of the sides of the prism, commented as facing outwards, point inwards;
  **C93** without overflow checks a call that reads over the end of a record returns bytes of the following one; a last
  record without bytes and without an end record is not reported; `get_record_data(false)` refuses the last record.
  **C94** a save of game data that cannot be encoded empties the game data in the file before it panics; every later call
  that needs the game data panics until storable game data is saved.
  **C95** the comparison that skips sides to the right of a cut takes y for x (a slip of the original program, kept on purpose
  in walls.rs, without a remark in mesh/mod.rs). A side that crosses the cut can be overlooked, and a simple outline of seven
  corners, no three on a line, gets one triangle instead of five (C95_overlooked_side_counterexample).
  **C80** the reach of the table's two lights is limited to 100 of the wanted unit, though the code says metres; exported in
  units of Visual Pinball they reach 5.4 cm (C80_reach_counterexample).
* Seen while modelling the glTF export, without a theorem: cameras are in metres whatever the units; materials are
  looked up with regard to case; of images with one name the playfield takes the first, other textures the last; the
  bytes of the playfield image are stored twice; the length of a file of 4 GiB or more wraps around.

## Trusted base

* Lean's kernel, and of its axioms only `propext`, `Classical.choice`, `Quot.sound`. `tools/axioms.sh`
  prints the axioms of every theorem in `MANIFEST.json`. No axiom is added, and nothing rests on compiled code.
  Concrete cases are calculated by the kernel (`decide +kernel`). Mathlib is used only for the real numbers of C73, C82,
  C83, C88, C92 and C95 (Props/RealShapes, Props/FlipperShape, Props/Camera, Spec/RealMesh, Props/Real*, Props/Outline).
* That the model follows the code: every definition cites what it models and says where it simplifies.
* Assumptions about libraries outside of /repo are fields of structures, never axioms; a theorem that needs one
  takes the structure as an argument:
  * `CfbLib` (crate `cfb`): names are compared ignoring case (fixed for ASCII only), children are listed in some
    order. The calls have the effects written in `Model/Cfb.lean`.
  * `Zlib` (flate2): decompressing what was compressed gives it back.
  * `JsonText` (serde_json): a printed tree is parsed back; which f32 values keep their bits is left open (`keeps`).
  * `FloatText` (std): printing and parsing numbers; nothing is assumed, theorems name what they need (`StdText`: the
    text of an f32 is nearer to it than to any other; `PrecText`: digits behind the point are correctly rounded).
  * `Unicode` (std): lower case and alphanumeric characters; ASCII as usual. C70 needs that names with different
    `_dedup` numbers stay different in lower case (`LowerDedup`, proved for ASCII).
  * `Stock`: the meshes of items as arbitrary functions whose faces use their own vertices (`StockInside`). C70 to C80
    hold for every stock; C81 puts in the meshes of the program (`itemStock`), where `ItemFns` (arcsine, arctangent,
    number parser) is arbitrary.
  * `GltfEnv`: what the glTF export takes from outside, as arbitrary functions: the meshes of items (see `Stock`), the
    PNG encoder, whether an image is see-through, the JSON forms of items and of the table (only assumed not to be
    `null`), the cameras (put in by C88), and the order in which two hash maps are walked (a permutation).
  * `BmpCodec` (image), LZW (weezl), `ObjText` (obj line reader), `sanitize_filename` (no slash in the result),
    `Path::extension`, image sizes, MD2: as written in `ExpandEnv` and `Env`.
* `i64` face indices and the counters of file names are unbounded integers; vectors have no length limit. Writing
  a file does not fail, except where a crash is the point (C29, C59).
* An overflow or underflow of an integer is a panic, as in builds with overflow checks; where the code relies on the
  checks (the number of bytes left in a record, `bytes_in_record_remaining -= n`), a release build would wrap around
  instead (C93 models both). Reading a table opens the compound file strictly (`open_strict`), the calls on parts of it permissively
  (`open`); the model makes no difference between a file that one accepts and the other refuses.

## What is not modelled

* Paths: C91 is about names in one directory. The `cfb` library refuses a file that is not a compound file, a compound
  file is never valid UTF-8, and a file that is being rewritten or changed in place counts as torn until the call is done.
* In `wasm.rs` the conversion of JavaScript values and progress. How `wavefront_obj_io` prints the lines of
  `export/obj_export.rs`.
* Logging, progress callbacks, and the texts of error messages.
