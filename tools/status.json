{
 "C01": {
  "status": "proved",
  "note": "For every list of records whose names have one to four characters without NUL and whose payloads fit a 32 bit length. The methods of the writer and reader called one by one are C93."
 },
 "C02": {
  "status": "proved",
  "note": "One record per kind of field; several values of mixed kinds, arrays and 64 bit numbers in one record are C93_values."
 },
 "C03": {
  "status": "proved",
  "note": "The condition is exact (C03_text_survives_iff); writing a character above U+00FF panics (C03_not_latin1_fails)."
 },
 "C04": {
  "status": "proved",
  "note": "For every string and, in the other direction, for every byte sequence (C04_decoder_exact)."
 },
 "C05": {
  "status": "proved",
  "note": "The decoder and encoder of Latin-1 and UTF-8 are modelled, not assumed."
 },
 "C06": {
  "status": "partial",
  "note": "Proved for every kind of item, for every structure read by a record loop without default arm, and for game data except directly behind BOTM at version 1080, where it is false (C06_gamedata_behind_botm_counterexample)."
 },
 "C07": {
  "status": "proved",
  "note": "For every byte sequence, well formed or not; the model's step limit is shown to be irrelevant (C07_limit_irrelevant)."
 },
 "C08": {
  "status": "proved",
  "note": "For every list of drag points, inside every kind of item that has them (C08_any_drag_points)."
 },
 "C09": {
  "status": "proved",
  "note": "All 21 kinds."
 },
 "C10": {
  "status": "proved",
  "note": "For all 2^32 type numbers; an item of an unknown kind keeps its records when it is read, and writing it panics (C10_unknown_kind_not_written)."
 },
 "C11": {
  "status": "proved",
  "note": "The item itself can change once if a primitive's frame records are unpaired; the bytes do not."
 },
 "C12": {
  "status": "proved",
  "note": "The conditions are the hypotheses of C12_gamedata_roundtrip; what is read when they fail is C12_gamedata_read_back."
 },
 "C13": {
  "status": "partial",
  "note": "Exact condition proved (C13_rewrite_identical_iff). The unconditional property is false: a camera layout mode at version 1080 moves the EFSS record (C13_camera_layout_moves_efss)."
 },
 "C14": {
  "status": "proved",
  "note": "For every collection and every list of tags whose texts can be represented."
 },
 "C15": {
  "status": "proved",
  "note": "The condition on ALTV is necessary (C15_altv_counterexample), and so is the one on an embedded file (C15_bitmap_swallows_file)."
 },
 "C16": {
  "status": "proved",
  "note": "For every version; what older versions lose is stated (C16_old_version_loses_volume)."
 },
 "C17": {
  "status": "proved",
  "note": "For every header the writer produces; headers of other programs with stray chunks need not come back (C17_stray_counterexample)."
 },
 "C18": {
  "status": "proved",
  "note": "Under the consistency of the format fields that the .wav file stores only once; necessary by C18_rate_counterexample and C18_other_format_counterexample."
 },
 "C19": {
  "status": "proved",
  "note": "All three formats, and the conversion of modern materials to the two legacy ones."
 },
 "C20": {
  "status": "proved",
  "note": "For every sequence of trailing bytes."
 },
 "C21": {
  "status": "proved",
  "note": "The conditions on stream names are necessary (C21_reserved_property_overwrites, C21_case_collision_loses, C21_bad_name_fails)."
 },
 "C22": {
  "status": "proved",
  "note": "The compound file and the hash are parameters with recorded assumptions (structure Env); everything stored in the streams is modelled."
 },
 "C23": {
  "status": "proved",
  "note": "For every sequence of calls, by induction on it."
 },
 "C24": {
  "status": "proved",
  "note": "For every sequence of calls, by induction on it."
 },
 "C25": {
  "status": "proved",
  "note": "Stated stream by stream of the compound file."
 },
 "C26": {
  "status": "proved",
  "note": "For every history of writes; MD2 is a parameter. Finding: a custom tag that is a path makes the check fail (C26_tag_path_breaks_check)."
 },
 "C27": {
  "status": "proved",
  "note": "MD2 is a parameter: the theorems hold for every hash function. Finding: the boundaries between the hashed texts are not covered (C27_boundaries_not_covered)."
 },
 "C28": {
  "status": "proved",
  "note": "A NUL in the imported text cuts the script (C28_nul_truncates)."
 },
 "C29": {
  "status": "proved",
  "note": "For every crash point between the steps on the file system; while the copy is being written its file counts as torn. The original path is empty between removal and rename (C29_name_missing)."
 },
 "C30": {
  "status": "proved",
  "note": "For every version number and every item the rules apply to."
 },
 "C31": {
  "status": "proved",
  "note": "Proved with the IEEE arithmetic of the model, for every stored value and every f32."
 },
 "C32": {
  "status": "proved",
  "note": "For every enumeration and every number of its type."
 },
 "C33": {
  "status": "proved",
  "note": "For every colour; C33_accepted says exactly which texts are colours (more than are written); C33_refused_counterexample: a text with other than ASCII characters can end the program."
 },
 "C34": {
  "status": "proved",
  "note": "The claim is restricted to the fields for which it is true (C34_plain_counterexample, C34_item_counterexample for the others)."
 },
 "C35": {
  "status": "proved",
  "note": "All 21 kinds. What serde_json does with text is a parameter with a recorded assumption (JsonText: a printed tree is parsed back)."
 },
 "C36": {
  "status": "proved",
  "note": "For every list of items, by induction on it."
 },
 "C37": {
  "status": "proved",
  "note": "For tables without primitives named json or like an animation frame; with such a name the result depends on the schedule (C37_collision_counterexample)."
 },
 "C38": {
  "status": "proved",
  "note": "For every list of items; an equivalence, so there are neither false nor missing warnings."
 },
 "C39": {
  "status": "proved",
  "note": "For every history of calls, by induction on it."
 },
 "C40": {
  "status": "proved",
  "note": "For names that do not end in _dedup and a number; otherwise false (C40_dedup_collides_counterexample)."
 },
 "C41": {
  "status": "proved",
  "note": "For fonts with different file names; in general every font gets the data of the last font with its file name (C41_last_font_wins, C41_overwritten_counterexample)."
 },
 "C42": {
  "status": "proved",
  "note": "For primitives not named json or like an animation frame; otherwise false (three counterexamples)."
 },
 "C43": {
  "status": "proved",
  "note": "For every byte sequence. LZW itself is a parameter in C43_lzw_roundtrip, with its round trip as recorded assumption."
 },
 "C44": {
  "status": "proved",
  "note": "For every byte sequence; an incomplete last pixel is dropped (C44_incomplete_pixel_dropped)."
 },
 "C45": {
  "status": "proved",
  "note": "For every item of every kind."
 },
 "C46": {
  "status": "proved",
  "note": "For every list of styles in any order and for all 256 bytes."
 },
 "C47": {
  "status": "proved",
  "note": "For every item of every kind and every value."
 },
 "C48": {
  "status": "proved",
  "note": "For every number of vertices; an index that needs more than the width of the mesh is not kept (C48_wrong_width)."
 },
 "C49": {
  "status": "proved",
  "note": "For all version numbers and, for the accepted texts, all strings."
 },
 "C50": {
  "status": "proved",
  "note": "For every image that can be expanded; the pixels of a bitmap come back, its compressed form may differ. LZW and the encoding of bitmaps are parameters."
 },
 "C51": {
  "status": "proved",
  "note": "For every font whose texts can be represented."
 },
 "C52": {
  "status": "proved",
  "note": "The printing and parsing of decimal numbers is modelled; numbers that do not survive their text are real (C52_number_counterexample, C52_vertex_counterexample)."
 },
 "C53": {
  "status": "proved",
  "note": "For all f32 bit patterns, with the IEEE arithmetic and the decimal printing of the model."
 },
 "C54": {
  "status": "proved",
  "note": "A NaN in a frame does not come back (C54_nan_counterexample)."
 },
 "C55": {
  "status": "proved",
  "note": "For every mesh and every cut of the file. A damaged file can abort the program instead of giving an error (C55_damaged_counterexample)."
 },
 "C56": {
  "status": "proved",
  "note": "For every file; a comment that starts with vpx and holds something else aborts the program (C56_comment_counterexample)."
 },
 "C57": {
  "status": "proved",
  "note": "Into an empty directory; stale files can change the result (C57_stale_materials_counterexample)."
 },
 "C58": {
  "status": "proved",
  "note": "For names without slashes; otherwise false (C58_escapes_counterexample)."
 },
 "C59": {
  "status": "proved",
  "note": "Images, sounds and item JSON files; scripts and meshes are overwritten (counterexamples)."
 },
 "C60": {
  "status": "proved",
  "note": "For outlines that are cut completely; a simple hexagon that gets no triangles is C60_simple_polygon_counterexample."
 },
 "C61": {
  "status": "proved",
  "note": "For computations that end; a NaN coordinate makes the recursion endless (C61_nan_never_ends, C61_ends_counterexample)."
 },
 "C62": {
  "status": "proved",
  "note": "For computations of the curve that end (see C61). Counterclockwise outlines: C62_counterclockwise_counterexample."
 },
 "C63": {
  "status": "proved",
  "note": "Coinciding neighbours: C63_marks_counterexample."
 },
 "C64": {
  "status": "proved",
  "note": "The tube, its placing, its faces and its closedness are proved for every arithmetic. Building fails only for an unfinished curve or when all drag points coincide; that the latter panics is proved as C64_no_panic_counterexample. C64_collapse_counterexample: the same for a rubber at height 0."
 },
 "C65": {
  "status": "proved",
  "note": "Sums are taken in the order of the faces, because floating point addition is not associative."
 },
 "C66": {
  "status": "proved",
  "note": "C66_turn_back_counterexample: where the curve turns back on itself the floor is thrown far away."
 },
 "C67": {
  "status": "proved",
  "note": "C67_collapse_counterexample: rings of a level wire behind a sharp right-angled corner have no extent."
 },
 "C68": {
  "status": "proved",
  "note": "That no foot is found beside an outer corner, so that the height of a ramp there is 0, is proved as C68_outer_corner_counterexample. C68_ieee_order shows that IEEE numbers meet the hypothesis."
 },
 "C69": {
  "status": "proved",
  "note": "That the normals of the sides point inwards, against the comment in the code, is proved as C69_normals_counterexample (real numbers)."
 },
 "C70": {
  "status": "proved",
  "note": "The meshes made from constant tables, of flippers and of plungers are a parameter (`Stock`) assumed to use their own vertices. Findings: smoothing is never switched off; a bumper ring without base and a spinner plate without bracket take over the material of an unrelated item; a primitive with indices out of range reaches into other objects."
 },
 "C71": {
  "status": "proved",
  "note": "Finding: different materials can go by the same name (`a b` and `ab`; `m__t` without texture and `m` with texture `t`), shown by a counterexample."
 },
 "C72": {
  "status": "proved",
  "note": "Finding: an image named in different cases of letters is written once per spelling."
 },
 "C73": {
  "status": "proved",
  "note": "Proved with exact numbers; C96 bounds what the rounding of f32 adds for primitives. Finding: with different sizes normals are stretched like the faces and do not stay at right angles (counterexample)."
 },
 "C74": {
  "status": "proved",
  "note": "As in Visual Pinball a wall shown only from above names its image as its material."
 },
 "C75": {
  "status": "proved",
  "note": "The cameras, the meshes from constant tables and of flippers, plungers, flashers, lights, decals and balls, the PNG encoder and the JSON forms of items are parameters."
 },
 "C76": {
  "status": "proved",
  "note": "Findings (counterexamples): after a mesh with an odd number of triangles the data of the next one are not aligned to four bytes, as glTF requires; a mesh without vertices has null bounds."
 },
 "C77": {
  "status": "proved",
  "note": "serde_json is a parameter that is assumed to parse what it prints, for finite numbers. Findings (counterexamples): a .gltf export to a name ending in .bin overwrites the data; a percent sign in the name is not escaped in the URI."
 },
 "C78": {
  "status": "proved",
  "note": "Hash map order and the PNG encoder are parameters. Findings (counterexamples): a missing image takes away the material too; meshes with the same image and white materials share the roughness of the first, also the playfield; an item with the material name of the playfield shows the playfield image; a playfield image without data panics; an image with file and bitmap is labelled PNG."
 },
 "C79": {
  "status": "proved",
  "note": "Meshes from fixed vertex tables are parameters. Findings (counterexamples): hidden lights are exported although hidden items were not asked for; hidden gates (also flippers, hit targets, triggers, plungers) are left out although they were asked for. The see-through flag of a ramp's material is only looked up among materials of the new format (the OBJ export also takes the old)."
 },
 "C80": {
  "status": "proved",
  "note": "Finding (counterexample): of two items with the same name all parts are put in the node of the first one, in its layer. The order of the layers (a hash map) is any permutation. Cameras are a parameter; that they are always placed in metres whatever the units of the export is a reading of camera.rs, not modelled. Finding (C80_reach_counterexample): the reach of the table's lights is limited to 100 of the wanted unit, meant to be metres; in units of Visual Pinball that is 5.4 cm."
 },
 "C81": {
  "status": "proved",
  "note": "The 36 vertex tables of the library are in the model, generated from /repo by tools/meshdata.py. 16-bit index arithmetic wraps as in a release build; a debug build panics instead for a spring of more than 8191 segments or a tip of more than 2048 points, and in a release build the triangles then use the wrong vertices of the mesh."
 },
 "C82": {
  "status": "proved",
  "note": "The point formulas are written once for any type of numbers: the f32 meshes use exactly these formulas (C82_bumpers and the like), and with exact numbers they are the turns and stretches of Spec/Placement (C82_bumper, C82_points). Rounding is bounded in C96. Findings (counterexamples): the normals of bumpers and hit targets are only turned, so they are wrong where the height is not the radius or the size is not the same in all directions; a turned trigger with two different scales is sheared."
 },
 "C83": {
  "status": "proved",
  "note": "That a vertex of the base ends on the circle of the base (C83_own_end) needs that its new place is not within 0.0001 of a point of the table, as can only be for flippers smaller than one unit. Findings: normals do not depend on the radii although the sides do (C83_normals_ignore_radii): the normals apply_fix computes are thrown away. Both exporters place flippers at height 0, not on their surface (a TODO in the code); given another height it would be both in the vertices and in the centre."
 },
 "C84": {
  "status": "proved",
  "note": "Rounding is not bounded: the f32 vertices are given by formulas (lathePoint, springPoint, coilPoint) that with exact numbers lie on the circles (C84_round, C84_spring_round, C84_wire_frame, C84_wire_round). Findings: the disc that is to close the rod at the player's end is at the collar (C84_rod_cap_counterexample); the spring ends one step of its end behind the rod (C84_spring_ends); triangles of springs of more than 8192 points and tips of more than 2049 points are left out because their 16-bit indices begin anew (C81); the order of a tip with a NaN in its text is not specified by std."
 },
 "C85": {
  "status": "proved",
  "note": "The outline is that of C61, the triangles those of C60. Rounding is not bounded: the f32 points are given by formulas that with exact numbers are the turns (C85_turned, C85_flat). The box needs coordinates less than the greatest f32 in size. Observed: the image of an insert is placed as if the table began at 0, 0 while that of a world-aligned flasher takes the left and top of the table into account."
 },
 "C86": {
  "status": "proved",
  "note": "Numbers survive being written as text where TextExact holds (C13 says when); V is flipped by 1 - v with conversion, exact where flipped_v is. Files are sequences of lines, as in C10. Finding: obj_to_mesh does not check the indices of a file that has only plain triangles: such a mesh may have indices outside its vertices (C86_unchecked_counterexample)."
 },
 "C87": {
  "status": "proved",
  "note": "The JavaScript object is a list of paths and contents without a path twice. The last step takes that the restored table can be stored (VPX.WF, as in C22). MemoryFileSystem keeps what is written to it (C31), which the binding relies on."
 },
 "C88": {
  "status": "proved",
  "note": "The f32 calculation and the one with real numbers are the same function; rounding is not bounded, and an infinite setting gives null in the JSON. Findings: in the legacy mode the y offset, said to move the camera up on the screen, moves it up and towards the player, at 45 degrees only away from the table (C88_offset_counterexample); the angle given to the fit is measured from the horizontal although the fit takes it from the vertical, and with the factor 0.47 the camera of a new table does not show the whole table (C88_whole_table_counterexample). Cameras are in metres whatever the units of the export."
 },
 "C89": {
  "status": "proved",
  "note": "Findings: the vertices of parts that are not drawn are stored with 32 zero bytes as their raw form, and the glTF and GLB readers of this crate prefer that form for normals, so normals are read back as zeros (C89_gltf_normals_lost); from OBJ such a vertex is put at the origin when its flipped texture coordinate has no exact text (C89_obj_back). Meshes that depend on the table's size use 952 by 2162 whatever the table. Names of parts keep `.json` in the middle."
 },
 "C90": {
  "status": "proved",
  "note": "The picture libraries are functions with recorded assumptions (WebP is lossless at 8 bits per channel). Findings: an image called BMP without a bitmap is reported as converted though it is not (C90_report_counterexample); with a path without a dot the data becomes WebP under the extension PNG (C90_no_dot_counterexample); the stored MD5 hash stays that of the old data (C90_hash_counterexample); a bitmap with too little data panics in the middle of the file."
 },
 "C91": {
  "status": "proved",
  "note": "Refinement: the calls on compound files against an abstract directory of tables and texts (C91_call, C91_history). Findings: tables whose names differ only in the extension share one script file (C91_shared_sidecar); a table called x.vbs is replaced by its own script when it is extracted with overwriting (C91_vbs_table_lost)."
 },
 "C92": {
  "status": "proved",
  "note": "The calculations are written once for any numbers. C92_same_rings, C92_same_sides, C92_same_shapes and C92_same_normals show that with the numbers of the code they are those of the models of the generators; the other theorems are about them with Mathlib's real numbers. Failures: C92_right_angle_counterexample, C92_turn_back_counterexample, and in IEEE arithmetic C64_collapse_counterexample, C67_collapse_counterexample, C66_turn_back_counterexample; C69_normals_counterexample. Rounding errors are not bounded."
 },
 "C93": {
  "status": "proved",
  "note": "Model of the reader with its position and of builds with and without overflow checks (Model/BiffApi, Model/BiffPen). C93_view proves that each method agrees with the model of the reader that the file format models use (Model/Biff); beyond the end of the data reading no bytes panics in the code and not in that model (C93_beyond_counterexample). get_color (deprecated) is not modelled. Failures: C93_unchecked_counterexample, C93_no_end_counterexample, C93_last_record_counterexample, C93_uncounted_counterexample."
 },
 "C94": {
  "status": "proved",
  "note": "Model of every method of VpxFile with the file as it is after the call, also when it fails (Model/Handle). The specification is an abstract table (Spec/Handle). Handles from open are read-only and a save through one is not modelled; nor is which bytes reach the disk when. C94_failed_save_counterexample: a failed save destroys the game data."
 },
 "C95": {
  "status": "proved",
  "note": "The two triangulations are written once for any numbers (Model/Outline); C95_same shows that with the numbers of the code they are the models of C60, and the other theorems are about them with Mathlib's real numbers. How far rounding moves the result is not bounded; that every simple outline is complete is false, with corners on a line (C60_simple_polygon_counterexample) and without (C95_overlooked_side_counterexample)."
 },
 "C96": {
  "status": "proved",
  "note": "The bounds are proved by counting roundings (Lemmas/Near), for primitives along the columns of the matrix product (Lemmas/NearMatrix, NearPrimitive). That the library's sine and cosine are right to 2^-23 is a hypothesis (CloseTrig); it can be met (example). Normals divided by their calculated length in Lemmas/NearUnit, the matrix of a tilted wire in Lemmas/NearFull. Flashers and inserts (Props/RoundingFlat) are bounded from the points of their outline on, which are calculated numbers themselves. Plungers (Props/RoundingLathe, RoundingPlunger): the rings, the discs and the normals away from the axis (for radii that are not very small beside the other sizes), not the spring. Flippers (Props/RoundingFlipper): that the library's arc tangent is at most 4 and its arc sine at most 2 is a hypothesis (SaneAngles); the length must not be zero, or the code divides by zero. Not bounded: the springs of plungers and the curves of walls, ramps and rubbers."
 }
}