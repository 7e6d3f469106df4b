{
 "claims": [
  {
   "property": "C01",
   "status": "proved",
   "theorems": [
    "Vpin.C01_written_bytes",
    "Vpin.C01_records_read_back",
    "Vpin.C01_framing_roundtrip",
    "Vpin.C01_names_distinct"
   ],
   "note": "For every list of records whose names have one to four characters without NUL and whose payloads fit a 32 bit length. The methods of the writer and reader called one by one are C93."
  },
  {
   "property": "C02",
   "status": "proved",
   "theorems": [
    "Vpin.C02_layout",
    "Vpin.C02_vertex4d",
    "Vpin.C02_bool",
    "Vpin.C02_u32",
    "Vpin.C02_i32",
    "Vpin.C02_f32",
    "Vpin.C02_vertex2d",
    "Vpin.C02_vertex3d",
    "Vpin.C02_vertex3d_unpadded",
    "Vpin.C02_color",
    "Vpin.C02_consumes_exactly"
   ],
   "note": "One record per kind of field; several values of mixed kinds, arrays and 64 bit numbers in one record are C93_values."
  },
  {
   "property": "C03",
   "status": "proved",
   "theorems": [
    "Vpin.C03_text_read_back",
    "Vpin.C03_not_latin1_fails",
    "Vpin.C03_text_survives_iff"
   ],
   "note": "The condition is exact (C03_text_survives_iff); writing a character above U+00FF panics (C03_not_latin1_fails)."
  },
  {
   "property": "C04",
   "status": "proved",
   "theorems": [
    "Vpin.C04_wide_survives",
    "Vpin.C04_decoder_exact",
    "Vpin.C04_odd_rejected",
    "Vpin.C04_unpaired_rejected"
   ],
   "note": "For every string and, in the other direction, for every byte sequence (C04_decoder_exact)."
  },
  {
   "property": "C05",
   "status": "proved",
   "theorems": [
    "Vpin.C05_script_bytes_preserved",
    "Vpin.C05_script_record",
    "Vpin.C05_script_text_survives"
   ],
   "note": "The decoder and encoder of Latin-1 and UTF-8 are modelled, not assumed."
  },
  {
   "property": "C06",
   "status": "partial",
   "theorems": [
    "Vpin.C06_gamedata_unknown_record_ignored",
    "Vpin.C06_gamedata_behind_botm_counterexample",
    "Vpin.C06_unknown_record_ignored",
    "Vpin.C06_unknown_record_ignored_struct",
    "Vpin.C06_unknown_records_ignored"
   ],
   "note": "Proved for every kind of item, for every structure read by a record loop without default arm, and for game data except directly behind BOTM at version 1080, where it is false (C06_gamedata_behind_botm_counterexample)."
  },
  {
   "property": "C07",
   "status": "proved",
   "theorems": [
    "Vpin.C07_gamedata_read_terminates",
    "Vpin.C07_image_read_terminates",
    "Vpin.C07_wav_read_terminates",
    "Vpin.C07_item_read_terminates",
    "Vpin.C07_limit_irrelevant",
    "Vpin.C07_records_visited",
    "Vpin.C07_all_items"
   ],
   "note": "For every byte sequence, well formed or not; the model's step limit is shown to be irrelevant (C07_limit_irrelevant)."
  },
  {
   "property": "C08",
   "status": "proved",
   "theorems": [
    "Vpin.C08_drag_points_roundtrip",
    "Vpin.C08_any_drag_points",
    "Vpin.C08_drag_point_roundtrip"
   ],
   "note": "For every list of drag points, inside every kind of item that has them (C08_any_drag_points)."
  },
  {
   "property": "C09",
   "status": "proved",
   "theorems": [
    "Vpin.C09_item_roundtrip"
   ],
   "note": "All 21 kinds."
  },
  {
   "property": "C10",
   "status": "proved",
   "theorems": [
    "Vpin.C10_write_type_number",
    "Vpin.C10_read_kind",
    "Vpin.C10_reserved_numbers",
    "Vpin.C10_numbers_distinct",
    "Vpin.C10_kind_preserved",
    "Vpin.C10_type_name",
    "Vpin.C10_unknown_kind_not_written",
    "Vpin.C10_unknown_kind_keeps_records"
   ],
   "note": "For all 2^32 type numbers; an item of an unknown kind keeps its records when it is read, and writing it panics (C10_unknown_kind_not_written)."
  },
  {
   "property": "C11",
   "status": "proved",
   "theorems": [
    "Vpin.C11_write_stable",
    "Vpin.C11_reread_same",
    "Vpin.C11_unpaired_frames_change"
   ],
   "note": "The item itself can change once if a primitive's frame records are unpaired; the bytes do not."
  },
  {
   "property": "C12",
   "status": "proved",
   "theorems": [
    "Vpin.C12_gamedata_read_back",
    "Vpin.C12_gamedata_roundtrip",
    "Vpin.C12_gamedata_reread",
    "Vpin.C12_gamedata_stable"
   ],
   "note": "The conditions are the hypotheses of C12_gamedata_roundtrip; what is read when they fail is C12_gamedata_read_back."
  },
  {
   "property": "C13",
   "status": "partial",
   "theorems": [
    "Vpin.C13_position",
    "Vpin.C13_rewrite_identical_iff",
    "Vpin.C13_reread_identical_partial",
    "Vpin.C13_camera_layout_moves_efss"
   ],
   "note": "Exact condition proved (C13_rewrite_identical_iff). The unconditional property is false: a camera layout mode at version 1080 moves the EFSS record (C13_camera_layout_moves_efss)."
  },
  {
   "property": "C14",
   "status": "proved",
   "theorems": [
    "Vpin.C14_collection_roundtrip",
    "Vpin.C14_collection_reread",
    "Vpin.C14_custominfotags_roundtrip",
    "Vpin.C14_custominfotags_reread"
   ],
   "note": "For every collection and every list of tags whose texts can be represented."
  },
  {
   "property": "C15",
   "status": "proved",
   "theorems": [
    "Vpin.C15_image_roundtrip",
    "Vpin.C15_image_reread",
    "Vpin.C15_bitmap_swallows_file",
    "Vpin.C15_altv_counterexample"
   ],
   "note": "The condition on ALTV is necessary (C15_altv_counterexample), and so is the one on an embedded file (C15_bitmap_swallows_file)."
  },
  {
   "property": "C16",
   "status": "proved",
   "theorems": [
    "Vpin.C16_sound_read_back",
    "Vpin.C16_sound_roundtrip",
    "Vpin.C16_sound_reread",
    "Vpin.C16_old_version_loses_volume",
    "Vpin.C16_wave_format_kept"
   ],
   "note": "For every version; what older versions lose is stated (C16_old_version_loses_volume)."
  },
  {
   "property": "C17",
   "status": "proved",
   "theorems": [
    "Vpin.C17_wav_roundtrip",
    "Vpin.C17_wav_verbatim",
    "Vpin.C17_wav_reread",
    "Vpin.C17_stray_counterexample"
   ],
   "note": "For every header the writer produces; headers of other programs with stray chunks need not come back (C17_stray_counterexample)."
  },
  {
   "property": "C18",
   "status": "proved",
   "theorems": [
    "Vpin.C18_export_import",
    "Vpin.C18_sound_restored",
    "Vpin.C18_rate_counterexample",
    "Vpin.C18_other_verbatim",
    "Vpin.C18_pcm_file",
    "Vpin.C18_other_format_counterexample"
   ],
   "note": "Under the consistency of the format fields that the .wav file stores only once; necessary by C18_rate_counterexample and C18_other_format_counterexample."
  },
  {
   "property": "C19",
   "status": "proved",
   "theorems": [
    "Vpin.C19_limits",
    "Vpin.C19_material_roundtrip",
    "Vpin.C19_material_reread",
    "Vpin.C19_legacy_roundtrip",
    "Vpin.C19_legacy_physics_roundtrip",
    "Vpin.C19_legacy_reread",
    "Vpin.C19_legacy_physics_reread",
    "Vpin.C19_legacy_name_cut",
    "Vpin.C19_to_legacy",
    "Vpin.C19_to_legacy_physics"
   ],
   "note": "All three formats, and the conversion of modern materials to the two legacy ones."
  },
  {
   "property": "C20",
   "status": "proved",
   "theorems": [
    "Vpin.C20_probe_roundtrip",
    "Vpin.C20_trailing_is_suffix",
    "Vpin.C20_probe_reread"
   ],
   "note": "For every sequence of trailing bytes."
  },
  {
   "property": "C21",
   "status": "proved",
   "theorems": [
    "Vpin.C21_tableinfo_roundtrip",
    "Vpin.C21_reserved_property_overwrites",
    "Vpin.C21_case_collision_loses",
    "Vpin.C21_bad_name_fails"
   ],
   "note": "The conditions on stream names are necessary (C21_reserved_property_overwrites, C21_case_collision_loses, C21_bad_name_fails)."
  },
  {
   "property": "C22",
   "status": "proved",
   "theorems": [
    "Vpin.C22_table_roundtrip",
    "Vpin.C22_table_reread",
    "Vpin.C22_read_counts",
    "Vpin.C22_empty_tag_fails"
   ],
   "note": "The compound file and the hash are parameters with recorded assumptions (structure Env); everything stored in the streams is modelled."
  },
  {
   "property": "C23",
   "status": "proved",
   "theorems": [
    "Vpin.C23_counts",
    "Vpin.C23_images_unique",
    "Vpin.C23_positions",
    "Vpin.C23_image_found",
    "Vpin.C23_items",
    "Vpin.C23_script",
    "Vpin.C23_rest_untouched"
   ],
   "note": "For every sequence of calls, by induction on it."
  },
  {
   "property": "C24",
   "status": "proved",
   "theorems": [
    "Vpin.C24_lock_history",
    "Vpin.C24_no_change_no_write"
   ],
   "note": "For every sequence of calls, by induction on it."
  },
  {
   "property": "C25",
   "status": "proved",
   "theorems": [
    "Vpin.C25_other_streams_kept",
    "Vpin.C25_which_streams",
    "Vpin.C25_lock_keeps_table"
   ],
   "note": "Stated stream by stream of the compound file."
  },
  {
   "property": "C26",
   "status": "proved",
   "theorems": [
    "Vpin.C26_verify_iff",
    "Vpin.C26_mismatch_reported",
    "Vpin.C26_verify_after_write",
    "Vpin.C26_history",
    "Vpin.C26_tag_path_breaks_check",
    "Vpin.C26_minimal_verifies",
    "Vpin.C26_written_table_verifies"
   ],
   "note": "For every history of writes; MD2 is a parameter. Finding: a custom tag that is a path makes the check fail (C26_tag_path_breaks_check)."
  },
  {
   "property": "C27",
   "status": "proved",
   "theorems": [
    "Vpin.C27_covered_only",
    "Vpin.C27_uncovered_writes",
    "Vpin.C27_boundaries_not_covered",
    "Vpin.C27_written_checksum",
    "Vpin.C27_uncovered_parts"
   ],
   "note": "MD2 is a parameter: the theorems hold for every hash function. Finding: the boundaries between the hashed texts are not covered (C27_boundaries_not_covered)."
  },
  {
   "property": "C28",
   "status": "proved",
   "theorems": [
    "Vpin.C28_existing_kept",
    "Vpin.C28_extract",
    "Vpin.C28_import_any_text",
    "Vpin.C28_extract_import",
    "Vpin.C28_import_errors",
    "Vpin.C28_nul_truncates"
   ],
   "note": "A NUL in the imported text cuts the script (C28_nul_truncates)."
  },
  {
   "property": "C29",
   "status": "proved",
   "theorems": [
    "Vpin.C29_copy_same",
    "Vpin.C29_made_wellformed",
    "Vpin.C29_same_name_iff",
    "Vpin.C29_crash_safe",
    "Vpin.C29_name_missing",
    "Vpin.C29_compacting_destroyed",
    "Vpin.C29_verify_same",
    "Vpin.C29_written_wellformed",
    "Vpin.C29_same_table"
   ],
   "note": "For every crash point between the steps on the file system; while the copy is being written its file counts as torn. The original path is empty between removal and rename (C29_name_missing)."
  },
  {
   "property": "C30",
   "status": "proved",
   "theorems": [
    "Vpin.C30_new_tables_stored",
    "Vpin.C30_old_playfield",
    "Vpin.C30_old_other",
    "Vpin.C30_old_lights",
    "Vpin.C30_old_glass"
   ],
   "note": "For every version number and every item the rules apply to."
  },
  {
   "property": "C31",
   "status": "proved",
   "theorems": [
    "Vpin.C31_stored_roundtrip",
    "Vpin.C31_u8_roundtrip",
    "Vpin.C31_u7_roundtrip",
    "Vpin.C31_percent_roundtrip",
    "Vpin.C31_read_in_range",
    "Vpin.C31_read_monotone",
    "Vpin.C31_store_rejects",
    "Vpin.C31_store_value",
    "Vpin.C31_store_monotone",
    "Vpin.C31_store_monotone_value",
    "Vpin.C31_store_in_range",
    "Vpin.C31_save_refuses"
   ],
   "note": "Proved with the IEEE arithmetic of the model, for every stored value and every f32."
  },
  {
   "property": "C32",
   "status": "proved",
   "theorems": [
    "Vpin.C32_one_to_one",
    "Vpin.C32_trigger_shape",
    "Vpin.C32_open_enumerations",
    "Vpin.C32_unknown_holding_known_number",
    "Vpin.C32_json_names"
   ],
   "note": "For every enumeration and every number of its type."
  },
  {
   "property": "C33",
   "status": "proved",
   "theorems": [
    "Vpin.C33_win_color_value",
    "Vpin.C33_win_color_roundtrip",
    "Vpin.C33_win_color_onto",
    "Vpin.C33_rgb_roundtrip",
    "Vpin.C33_text_roundtrip",
    "Vpin.C33_text_distinct",
    "Vpin.C33_file_form",
    "Vpin.C33_accepted_shape",
    "Vpin.C33_liberal_parser",
    "Vpin.C33_accepted",
    "Vpin.C33_refused",
    "Vpin.C33_refused_counterexample"
   ],
   "note": "For every colour; C33_accepted says exactly which texts are colours (more than are written); C33_refused_counterexample: a text with other than ASCII characters can end the program."
  },
  {
   "property": "C34",
   "status": "proved",
   "theorems": [
    "Vpin.C34_every_bit_pattern",
    "Vpin.C34_not_finite",
    "Vpin.C34_finite",
    "Vpin.C34_plain_counterexample",
    "Vpin.C34_item_counterexample"
   ],
   "note": "The claim is restricted to the fields for which it is true (C34_plain_counterexample, C34_item_counterexample for the others)."
  },
  {
   "property": "C35",
   "status": "proved",
   "theorems": [
    "Vpin.C35_item_restored",
    "Vpin.C35_all_but_meshes",
    "Vpin.C35_layer_only_in_index"
   ],
   "note": "All 21 kinds. What serde_json does with text is a parameter with a recorded assumption (JsonText: a printed tree is parsed back)."
  },
  {
   "property": "C36",
   "status": "proved",
   "theorems": [
    "Vpin.C36_names_unique",
    "Vpin.C36_names_safe",
    "Vpin.C36_safe_not_forbidden",
    "Vpin.C36_free_name_kept",
    "Vpin.C36_name_of_item"
   ],
   "note": "For every list of items, by induction on it."
  },
  {
   "property": "C37",
   "status": "proved",
   "theorems": [
    "Vpin.C37_collision_counterexample",
    "Vpin.C37_any_schedule"
   ],
   "note": "For tables without primitives named json or like an animation frame; with such a name the result depends on the schedule (C37_collision_counterexample)."
  },
  {
   "property": "C38",
   "status": "proved",
   "theorems": [
    "Vpin.C38_warnings_exact",
    "Vpin.C38_no_warning_iff",
    "Vpin.C38_warning_count"
   ],
   "note": "For every list of items; an equivalence, so there are neither false nor missing warnings."
  },
  {
   "property": "C39",
   "status": "proved",
   "theorems": [
    "Vpin.C39_latest_write",
    "Vpin.C39_unflushed_invisible"
   ],
   "note": "For every history of calls, by induction on it."
  },
  {
   "property": "C40",
   "status": "proved",
   "theorems": [
    "Vpin.C40_dedup_collides_counterexample",
    "Vpin.C40_image_files_differ",
    "Vpin.C40_sound_files_differ",
    "Vpin.C40_sound_extension"
   ],
   "note": "For names that do not end in _dedup and a number; otherwise false (C40_dedup_collides_counterexample)."
  },
  {
   "property": "C41",
   "status": "proved",
   "theorems": [
    "Vpin.C41_overwritten_counterexample",
    "Vpin.C41_last_font_wins",
    "Vpin.C41_fonts_restored"
   ],
   "note": "For fonts with different file names; in general every font gets the data of the last font with its file name (C41_last_font_wins, C41_overwritten_counterexample)."
  },
  {
   "property": "C42",
   "status": "proved",
   "theorems": [
    "Vpin.C42_frame_collides_counterexample",
    "Vpin.C42_mesh_becomes_frame_counterexample",
    "Vpin.C42_named_json_counterexample",
    "Vpin.C42_item_files_differ"
   ],
   "note": "For primitives not named json or like an animation frame; otherwise false (three counterexamples)."
  },
  {
   "property": "C43",
   "status": "proved",
   "theorems": [
    "Vpin.C43_blocks",
    "Vpin.C43_blocks_roundtrip",
    "Vpin.C43_lzw_roundtrip",
    "Vpin.C43_from_blocks_terminates"
   ],
   "note": "For every byte sequence. LZW itself is a parameter in C43_lzw_roundtrip, with its round trip as recorded assumption."
  },
  {
   "property": "C44",
   "status": "proved",
   "theorems": [
    "Vpin.C44_swap_twice",
    "Vpin.C44_swap_pixel",
    "Vpin.C44_incomplete_pixel_dropped"
   ],
   "note": "For every byte sequence; an incomplete last pixel is dropped (C44_incomplete_pixel_dropped)."
  },
  {
   "property": "C45",
   "status": "proved",
   "theorems": [
    "Vpin.C45_images",
    "Vpin.C45_materials",
    "Vpin.C45_physics_material"
   ],
   "note": "For every item of every kind."
  },
  {
   "property": "C46",
   "status": "proved",
   "theorems": [
    "Vpin.C46_style_any_order",
    "Vpin.C46_styles_roundtrip",
    "Vpin.C46_styles_distinct",
    "Vpin.C46_table",
    "Vpin.C46_unknown_bits_ignored"
   ],
   "note": "For every list of styles in any order and for all 256 bytes."
  },
  {
   "property": "C47",
   "status": "proved",
   "theorems": [
    "Vpin.C47_layer_name",
    "Vpin.C47_layer_visibility",
    "Vpin.C47_layer",
    "Vpin.C47_locked",
    "Vpin.C47_independent"
   ],
   "note": "For every item of every kind and every value."
  },
  {
   "property": "C48",
   "status": "proved",
   "theorems": [
    "Vpin.C48_faces_back",
    "Vpin.C48_width",
    "Vpin.C48_bytes_back",
    "Vpin.C48_wrong_width",
    "Vpin.C48_read_mesh"
   ],
   "note": "For every number of vertices; an index that needs more than the width of the mesh is not kept (C48_wrong_width)."
  },
  {
   "property": "C49",
   "status": "proved",
   "theorems": [
    "Vpin.C49_text_roundtrip",
    "Vpin.C49_accepted",
    "Vpin.C49_file_roundtrip",
    "Vpin.C49_order"
   ],
   "note": "For all version numbers and, for the accepted texts, all strings."
  },
  {
   "property": "C50",
   "status": "proved",
   "theorems": [
    "Vpin.C50_image_restored"
   ],
   "note": "For every image that can be expanded; the pixels of a bitmap come back, its compressed form may differ. LZW and the encoding of bitmaps are parameters."
  },
  {
   "property": "C51",
   "status": "proved",
   "theorems": [
    "Vpin.C51_font_roundtrip",
    "Vpin.C51_font_reread"
   ],
   "note": "For every font whose texts can be represented."
  },
  {
   "property": "C52",
   "status": "proved",
   "theorems": [
    "Vpin.C52_number_survives",
    "Vpin.C52_number_counterexample",
    "Vpin.C52_vertex_counterexample",
    "Vpin.C52_mesh_back",
    "Vpin.C52_primitive_back",
    "Vpin.C52_data_back"
   ],
   "note": "The printing and parsing of decimal numbers is modelled; numbers that do not survive their text are real (C52_number_counterexample, C52_vertex_counterexample)."
  },
  {
   "property": "C53",
   "status": "proved",
   "theorems": [
    "Vpin.C53_range",
    "Vpin.C53_complete",
    "Vpin.C53_no_text",
    "Vpin.C53_short",
    "Vpin.C53_flip_exact",
    "Vpin.C53_flip_unchecked_range",
    "Vpin.C53_flip_parses"
   ],
   "note": "For all f32 bit patterns, with the IEEE arithmetic and the decimal printing of the model."
  },
  {
   "property": "C54",
   "status": "proved",
   "theorems": [
    "Vpin.C54_frame_back",
    "Vpin.C54_frames_back",
    "Vpin.C54_nan_counterexample"
   ],
   "note": "A NaN in a frame does not come back (C54_nan_counterexample)."
  },
  {
   "property": "C55",
   "status": "proved",
   "theorems": [
    "Vpin.C55_glb_back",
    "Vpin.C55_gltf_back",
    "Vpin.C55_primitive_back",
    "Vpin.C55_frame_back",
    "Vpin.C55_container",
    "Vpin.C55_truncated",
    "Vpin.C55_damaged_counterexample",
    "Vpin.C55_foreign_counterexample"
   ],
   "note": "For every mesh and every cut of the file. A damaged file can abort the program instead of giving an error (C55_damaged_counterexample)."
  },
  {
   "property": "C56",
   "status": "proved",
   "theorems": [
    "Vpin.C56_triangles",
    "Vpin.C56_accepts",
    "Vpin.C56_geometry",
    "Vpin.C56_plain",
    "Vpin.C56_no_panic",
    "Vpin.C56_comment_counterexample"
   ],
   "note": "For every file; a comment that starts with vpx and holds something else aborts the program (C56_comment_counterexample)."
  },
  {
   "property": "C57",
   "status": "proved",
   "theorems": [
    "Vpin.C57_table_restored",
    "Vpin.C57_expand_succeeds",
    "Vpin.C57_stale_materials_counterexample"
   ],
   "note": "Into an empty directory; stale files can change the result (C57_stale_materials_counterexample)."
  },
  {
   "property": "C58",
   "status": "proved",
   "theorems": [
    "Vpin.C58_escapes_counterexample",
    "Vpin.C58_only_in_directory",
    "Vpin.C58_names_suffice"
   ],
   "note": "For names without slashes; otherwise false (C58_escapes_counterexample)."
  },
  {
   "property": "C59",
   "status": "proved",
   "theorems": [
    "Vpin.C59_script_overwritten_counterexample",
    "Vpin.C59_mesh_overwritten_counterexample",
    "Vpin.C59_existing_kept"
   ],
   "note": "Images, sounds and item JSON files; scripts and meshes are overwritten (counterexamples)."
  },
  {
   "property": "C60",
   "status": "proved",
   "theorems": [
    "Vpin.C60_wall_top",
    "Vpin.C60_wall_top_small",
    "Vpin.C60_polygon",
    "Vpin.C60_polygon_small",
    "Vpin.C60_simple_polygon_counterexample"
   ],
   "note": "For outlines that are cut completely; a simple hexagon that gets no triangles is C60_simple_polygon_counterexample."
  },
  {
   "property": "C61",
   "status": "proved",
   "theorems": [
    "Vpin.C61_curve",
    "Vpin.C61_control_points",
    "Vpin.C61_no_panic",
    "Vpin.C61_fuel",
    "Vpin.C61_small",
    "Vpin.C61_smooth_drag_points",
    "Vpin.C61_ramp_curve",
    "Vpin.C61_ramp_no_panic",
    "Vpin.C61_nan_never_ends",
    "Vpin.C61_ends_counterexample",
    "Vpin.C61_spline",
    "Vpin.C61_spline_ends",
    "Vpin.C61_spline_smooth",
    "Vpin.C61_flat_spline",
    "Vpin.C61_space_spline",
    "Vpin.C61_code_spline"
   ],
   "note": "For computations that end; a NaN coordinate makes the recursion endless (C61_nan_never_ends, C61_ends_counterexample)."
  },
  {
   "property": "C62",
   "status": "proved",
   "theorems": [
    "Vpin.C62_sides",
    "Vpin.C62_top",
    "Vpin.C62_wall",
    "Vpin.C62_wall_meshes",
    "Vpin.C62_encoded",
    "Vpin.C62_indices",
    "Vpin.C62_surface",
    "Vpin.C62_counterclockwise_counterexample"
   ],
   "note": "For computations of the curve that end (see C61). Counterclockwise outlines: C62_counterclockwise_counterexample."
  },
  {
   "property": "C63",
   "status": "proved",
   "theorems": [
    "Vpin.C63_texture",
    "Vpin.C63_marks",
    "Vpin.C63_marks_counterexample"
   ],
   "note": "Coinciding neighbours: C63_marks_counterexample."
  },
  {
   "property": "C64",
   "status": "proved",
   "theorems": [
    "Vpin.C64_collapse_counterexample",
    "Vpin.C64_rubber",
    "Vpin.C64_indices",
    "Vpin.C64_closed",
    "Vpin.C64_failure",
    "Vpin.C64_ring_segments",
    "Vpin.C64_no_panic_counterexample"
   ],
   "note": "The tube, its placing, its faces and its closedness are proved for every arithmetic. Building fails only for an unfinished curve or when all drag points coincide; that the latter panics is proved as C64_no_panic_counterexample. C64_collapse_counterexample: the same for a rubber at height 0."
  },
  {
   "property": "C65",
   "status": "proved",
   "theorems": [
    "Vpin.C65_normals"
   ],
   "note": "Sums are taken in the order of the faces, because floating point addition is not associative."
  },
  {
   "property": "C66",
   "status": "proved",
   "theorems": [
    "Vpin.C66_turn_back_counterexample",
    "Vpin.C66_flat",
    "Vpin.C66_strip",
    "Vpin.C66_indices",
    "Vpin.C66_absent",
    "Vpin.C66_failure"
   ],
   "note": "C66_turn_back_counterexample: where the curve turns back on itself the floor is thrown far away."
  },
  {
   "property": "C67",
   "status": "proved",
   "theorems": [
    "Vpin.C67_collapse_counterexample",
    "Vpin.C67_wires",
    "Vpin.C67_surface",
    "Vpin.C67_segments"
   ],
   "note": "C67_collapse_counterexample: rings of a level wire behind a sharp right-angled corner have no extent."
  },
  {
   "property": "C68",
   "status": "proved",
   "theorems": [
    "Vpin.C68_closest",
    "Vpin.C68_height",
    "Vpin.C68_no_panic",
    "Vpin.C68_ieee_order",
    "Vpin.C68_outer_corner_counterexample"
   ],
   "note": "That no foot is found beside an outer corner, so that the height of a ramp there is 0, is proved as C68_outer_corner_counterexample. C68_ieee_order shows that IEEE numbers meet the hypothesis."
  },
  {
   "property": "C69",
   "status": "proved",
   "theorems": [
    "Vpin.C69_prism",
    "Vpin.C69_places",
    "Vpin.C69_closed",
    "Vpin.C69_indices",
    "Vpin.C69_inside",
    "Vpin.C69_effective",
    "Vpin.C69_normals_counterexample"
   ],
   "note": "That the normals of the sides point inwards, against the comment in the code, is proved as C69_normals_counterexample (real numbers)."
  },
  {
   "property": "C70",
   "status": "proved",
   "theorems": [
    "Vpin.C70_scene",
    "Vpin.C70_succeeds",
    "Vpin.C70_smoothing",
    "Vpin.C70_inherited_material_counterexample",
    "Vpin.C70_stray_corner_counterexample",
    "Vpin.C70_playfield",
    "Vpin.C70_units"
   ],
   "note": "The meshes made from constant tables, of flippers and of plungers are a parameter (`Stock`) assumed to use their own vertices. Findings: smoothing is never switched off; a bumper ring without base and a spinner plate without bracket take over the material of an unrelated item; a primitive with indices out of range reaches into other objects."
  },
  {
   "property": "C71",
   "status": "proved",
   "theorems": [
    "Vpin.C71_sections",
    "Vpin.C71_defined",
    "Vpin.C71_unambiguous",
    "Vpin.C71_once",
    "Vpin.C71_each",
    "Vpin.C71_collision_counterexample"
   ],
   "note": "Finding: different materials can go by the same name (`a b` and `ab`; `m__t` without texture and `m` with texture `t`), shown by a counterexample."
  },
  {
   "property": "C72",
   "status": "proved",
   "theorems": [
    "Vpin.C72_names",
    "Vpin.C72_images"
   ],
   "note": "Finding: an image named in different cases of letters is written once per spelling."
  },
  {
   "property": "C73",
   "status": "proved",
   "theorems": [
    "Vpin.C73_placement",
    "Vpin.C73_shape",
    "Vpin.C73_normals_counterexample",
    "Vpin.C73_primitive",
    "Vpin.C73_shape_real"
   ],
   "note": "Proved with exact numbers; C96 bounds what the rounding of f32 adds for primitives. Finding: with different sizes normals are stretched like the faces and do not stay at right angles (counterexample)."
  },
  {
   "property": "C74",
   "status": "proved",
   "theorems": [
    "Vpin.C74_detail",
    "Vpin.C74_height",
    "Vpin.C74_parts",
    "Vpin.C74_standing",
    "Vpin.C74_primitive",
    "Vpin.C74_hidden_primitive",
    "Vpin.C74_ramp",
    "Vpin.C74_rubber",
    "Vpin.C74_wall",
    "Vpin.C74_not_visible",
    "Vpin.C74_hidden_kept"
   ],
   "note": "As in Visual Pinball a wall shown only from above names its image as its material."
  },
  {
   "property": "C75",
   "status": "proved",
   "theorems": [
    "Vpin.C75_document_read",
    "Vpin.C75_document_sound",
    "Vpin.C75_scene_tree"
   ],
   "note": "The cameras, the meshes from constant tables and of flippers, plungers, flashers, lights, decals and balls, the PNG encoder and the JSON forms of items are parameters."
  },
  {
   "property": "C76",
   "status": "proved",
   "theorems": [
    "Vpin.C76_mesh_data",
    "Vpin.C76_mesh_nodes",
    "Vpin.C76_indices",
    "Vpin.C76_bounds",
    "Vpin.C76_alignment_counterexample",
    "Vpin.C76_empty_mesh_counterexample"
   ],
   "note": "Findings (counterexamples): after a mesh with an odd number of triangles the data of the next one are not aligned to four bytes, as glTF requires; a mesh without vertices has null bounds."
  },
  {
   "property": "C77",
   "status": "proved",
   "theorems": [
    "Vpin.C77_glb",
    "Vpin.C77_gltf",
    "Vpin.C77_bin_name_counterexample",
    "Vpin.C77_percent_counterexample"
   ],
   "note": "serde_json is a parameter that is assumed to parse what it prints, for finite numbers. Findings (counterexamples): a .gltf export to a name ending in .bin overwrites the data; a percent sign in the name is not escaped in the URI."
  },
  {
   "property": "C78",
   "status": "proved",
   "theorems": [
    "Vpin.C78_texture",
    "Vpin.C78_table_material",
    "Vpin.C78_table_material_old",
    "Vpin.C78_tint",
    "Vpin.C78_ball",
    "Vpin.C78_transmission",
    "Vpin.C78_texture_and_material",
    "Vpin.C78_shared",
    "Vpin.C78_missing_image_counterexample",
    "Vpin.C78_roughness_counterexample",
    "Vpin.C78_playfield_name_counterexample",
    "Vpin.C78_playfield_link_counterexample",
    "Vpin.C78_mime_counterexample",
    "Vpin.C78_both_names",
    "Vpin.C78_surface",
    "Vpin.C78_playfield",
    "Vpin.C78_transmission_blend",
    "Vpin.C78_names",
    "Vpin.C78_sampling"
   ],
   "note": "Hash map order and the PNG encoder are parameters. Findings (counterexamples): a missing image takes away the material too; meshes with the same image and white materials share the roughness of the first, also the playfield; an item with the material name of the playfield shows the playfield image; a playfield image without data panics; an image with file and bitmap is labelled PNG."
  },
  {
   "property": "C79",
   "status": "proved",
   "theorems": [
    "Vpin.C79_parts",
    "Vpin.C79_hidden",
    "Vpin.C79_group",
    "Vpin.C79_standing",
    "Vpin.C79_light",
    "Vpin.C79_primitive",
    "Vpin.C79_hidden_primitive",
    "Vpin.C79_wall",
    "Vpin.C79_ramp",
    "Vpin.C79_rubber",
    "Vpin.C79_scene",
    "Vpin.C79_local",
    "Vpin.C79_hidden_light_counterexample",
    "Vpin.C79_invisible_counterexample",
    "Vpin.C79_light_through_primitives",
    "Vpin.C79_shapes",
    "Vpin.C79_centre",
    "Vpin.C79_insert",
    "Vpin.C79_light_through",
    "Vpin.C79_ball",
    "Vpin.C79_playfield_shape",
    "Vpin.C79_detail",
    "Vpin.C79_not_visible"
   ],
   "note": "Meshes from fixed vertex tables are parameters. Findings (counterexamples): hidden lights are exported although hidden items were not asked for; hidden gates (also flippers, hit targets, triggers, plungers) are left out although they were asked for. The see-through flag of a ramp's material is only looked up among materials of the new format (the OBJ export also takes the old)."
  },
  {
   "property": "C80",
   "status": "proved",
   "theorems": [
    "Vpin.C80_items",
    "Vpin.C80_lights",
    "Vpin.C80_root",
    "Vpin.C80_same_name_counterexample",
    "Vpin.C80_light_values",
    "Vpin.C80_table_lights",
    "Vpin.C80_light_reach",
    "Vpin.C80_reach_counterexample"
   ],
   "note": "Finding (counterexample): of two items with the same name all parts are put in the node of the first one, in its layer. The order of the layers (a hash map) is any permutation. Cameras are a parameter; that they are always placed in metres whatever the units of the export is a reading of camera.rs, not modelled. Finding (C80_reach_counterexample): the reach of the table's lights is limited to 100 of the wanted unit, meant to be metres; in units of Visual Pinball that is 5.4 cm."
  },
  {
   "property": "C81",
   "status": "proved",
   "theorems": [
    "Vpin.C81_meshes_inside",
    "Vpin.C81_flat_total",
    "Vpin.C81_obj",
    "Vpin.C81_gltf"
   ],
   "note": "The 36 vertex tables of the library are in the model, generated from /repo by tools/meshdata.py. 16-bit index arithmetic wraps as in a release build; a debug build panics instead for a spring of more than 8191 segments or a tip of more than 2048 points, and in a release build the triangles then use the wrong vertices of the mesh."
  },
  {
   "property": "C82",
   "status": "proved",
   "theorems": [
    "Vpin.C82_bumper",
    "Vpin.C82_points",
    "Vpin.C82_normals",
    "Vpin.C82_trigger_matrix",
    "Vpin.C82_similar",
    "Vpin.C82_right_angles",
    "Vpin.C82_bumper_size",
    "Vpin.C82_decal",
    "Vpin.C82_bumpers",
    "Vpin.C82_gates",
    "Vpin.C82_hit_targets",
    "Vpin.C82_spinners",
    "Vpin.C82_kickers",
    "Vpin.C82_balls",
    "Vpin.C82_triggers",
    "Vpin.C82_decals",
    "Vpin.C82_normalized",
    "Vpin.C82_bumper_normal_counterexample",
    "Vpin.C82_target_normal_counterexample",
    "Vpin.C82_trigger_sheared_counterexample",
    "Vpin.C82_similar_real",
    "Vpin.C82_right_angles_real",
    "Vpin.C82_decal_real"
   ],
   "note": "The point formulas are written once for any type of numbers: the f32 meshes use exactly these formulas (C82_bumpers and the like), and with exact numbers they are the turns and stretches of Spec/Placement (C82_bumper, C82_points). Rounding is bounded in C96. Findings (counterexamples): the normals of bumpers and hit targets are only turned, so they are wrong where the height is not the radius or the size is not the same in all directions; a turned trigger with two different scales is sheared."
  },
  {
   "property": "C83",
   "status": "proved",
   "theorems": [
    "Vpin.C83_meshes",
    "Vpin.C83_one_mesh",
    "Vpin.C83_round",
    "Vpin.C83_own_end",
    "Vpin.C83_points",
    "Vpin.C83_rigid",
    "Vpin.C83_circle",
    "Vpin.C83_tangent",
    "Vpin.C83_normals_ignore_radii",
    "Vpin.C83_limited"
   ],
   "note": "That a vertex of the base ends on the circle of the base (C83_own_end) needs that its new place is not within 0.0001 of a point of the table, as can only be for flippers smaller than one unit. Findings: normals do not depend on the radii although the sides do (C83_normals_ignore_radii): the normals apply_fix computes are thrown away. Both exporters place flippers at height 0, not on their surface (a TODO in the code); given another height it would be both in the vertices and in the centre."
  },
  {
   "property": "C84",
   "status": "proved",
   "theorems": [
    "Vpin.C84_parts",
    "Vpin.C84_flat_rod",
    "Vpin.C84_rod",
    "Vpin.C84_collar",
    "Vpin.C84_tip",
    "Vpin.C84_tip_text",
    "Vpin.C84_whole",
    "Vpin.C84_spring",
    "Vpin.C84_tip_order",
    "Vpin.C84_round",
    "Vpin.C84_spring_round",
    "Vpin.C84_wire_frame",
    "Vpin.C84_wire_round",
    "Vpin.C84_spring_ends",
    "Vpin.C84_rod_cap_counterexample"
   ],
   "note": "Rounding is not bounded: the f32 vertices are given by formulas (lathePoint, springPoint, coilPoint) that with exact numbers lie on the circles (C84_round, C84_spring_round, C84_wire_frame, C84_wire_round). Findings: the disc that is to close the rod at the player's end is at the collar (C84_rod_cap_counterexample); the spring ends one step of its end behind the rod (C84_spring_ends); triangles of springs of more than 8192 points and tips of more than 2049 points are left out because their 16-bit indices begin anew (C81); the order of a tip with a NaN in its text is not specified by std."
  },
  {
   "property": "C85",
   "status": "proved",
   "theorems": [
    "Vpin.C85_flasher_none",
    "Vpin.C85_flasher",
    "Vpin.C85_insert_none",
    "Vpin.C85_insert",
    "Vpin.C85_bounds",
    "Vpin.C85_turned",
    "Vpin.C85_flat"
   ],
   "note": "The outline is that of C61, the triangles those of C60. Rounding is not bounded: the f32 points are given by formulas that with exact numbers are the turns (C85_turned, C85_flat). The box needs coordinates less than the greatest f32 in size. Observed: the image of an insert is placed as if the table began at 0, 0 while that of a world-aligned flasher takes the left and top of the table into account."
  },
  {
   "property": "C86",
   "status": "proved",
   "theorems": [
    "Vpin.C86_accepts",
    "Vpin.C86_no_panic",
    "Vpin.C86_back",
    "Vpin.C86_extracted",
    "Vpin.C86_same_lines",
    "Vpin.C86_aligned",
    "Vpin.C86_checked",
    "Vpin.C86_geometry",
    "Vpin.C86_unchecked_counterexample",
    "Vpin.C86_midpoint",
    "Vpin.C86_builtin"
   ],
   "note": "Numbers survive being written as text where TextExact holds (C13 says when); V is flipped by 1 - v with conversion, exact where flipped_v is. Files are sequences of lines, as in C10. Finding: obj_to_mesh does not check the indices of a file that has only plain triangles: such a mesh may have indices outside its vertices (C86_unchecked_counterexample)."
  },
  {
   "property": "C87",
   "status": "proved",
   "theorems": [
    "Vpin.C87_extract_assemble",
    "Vpin.C87_below_root"
   ],
   "note": "The JavaScript object is a list of paths and contents without a path twice. The last step takes that the restored table can be stored (VPX.WF, as in C22). MemoryFileSystem keeps what is written to it (C31), which the binding relies on."
  },
  {
   "property": "C88",
   "status": "proved",
   "theorems": [
    "Vpin.C88_view",
    "Vpin.C88_place",
    "Vpin.C88_centre",
    "Vpin.C88_straight",
    "Vpin.C88_axes",
    "Vpin.C88_offset_counterexample",
    "Vpin.C88_fit",
    "Vpin.C88_whole_table_counterexample",
    "Vpin.C88_settings",
    "Vpin.C88_in_file"
   ],
   "note": "The f32 calculation and the one with real numbers are the same function; rounding is not bounded, and an infinite setting gives null in the JSON. Findings: in the legacy mode the y offset, said to move the camera up on the screen, moves it up and towards the player, at 45 degrees only away from the table (C88_offset_counterexample); the angle given to the fit is measured from the horizontal although the fit takes it from the vertical, and with the factor 0.47 the camera of a new table does not show the whole table (C88_whole_table_counterexample). Cameras are in metres whatever the units of the export."
  },
  {
   "property": "C89",
   "status": "proved",
   "theorems": [
    "Vpin.C89_succeeds",
    "Vpin.C89_same_files",
    "Vpin.C89_table_restored",
    "Vpin.C89_files_named",
    "Vpin.C89_files",
    "Vpin.C89_drawn_back",
    "Vpin.C89_gltf_normals_lost",
    "Vpin.C89_obj_back"
   ],
   "note": "Findings: the vertices of parts that are not drawn are stored with 32 zero bytes as their raw form, and the glTF and GLB readers of this crate prefer that form for normals, so normals are read back as zeros (C89_gltf_normals_lost); from OBJ such a vertex is put at the origin when its flipped texture coordinate has no exact text (C89_obj_back). Meshes that depend on the table's size use 952 by 2162 whatever the table. Names of parts keep `.json` in the middle."
  },
  {
   "property": "C90",
   "status": "proved",
   "theorems": [
    "Vpin.C90_other_streams",
    "Vpin.C90_verify",
    "Vpin.C90_table",
    "Vpin.C90_succeeds",
    "Vpin.C90_twice",
    "Vpin.C90_report_counterexample",
    "Vpin.C90_no_dot_counterexample",
    "Vpin.C90_hash_counterexample"
   ],
   "note": "The picture libraries are functions with recorded assumptions (WebP is lossless at 8 bits per channel). Findings: an image called BMP without a bitmap is reported as converted though it is not (C90_report_counterexample); with a path without a dot the data becomes WebP under the extension PNG (C90_no_dot_counterexample); the stored MD5 hash stays that of the old data (C90_hash_counterexample); a bitmap with too little data panics in the middle of the file."
  },
  {
   "property": "C91",
   "status": "proved",
   "theorems": [
    "Vpin.C91_sidecar",
    "Vpin.C91_sidecar_added",
    "Vpin.C91_call",
    "Vpin.C91_history",
    "Vpin.C91_expected",
    "Vpin.C91_crash_frame",
    "Vpin.C91_carry_script",
    "Vpin.C91_shared_sidecar",
    "Vpin.C91_vbs_table_lost"
   ],
   "note": "Refinement: the calls on compound files against an abstract directory of tables and texts (C91_call, C91_history). Findings: tables whose names differ only in the extension share one script file (C91_shared_sidecar); a table called x.vbs is replaced by its own script when it is extracted with overwriting (C91_vbs_table_lost)."
  },
  {
   "property": "C92",
   "status": "proved",
   "theorems": [
    "Vpin.C92_same_rings",
    "Vpin.C92_same_sides",
    "Vpin.C92_same_shapes",
    "Vpin.C92_same_normals",
    "Vpin.C92_round",
    "Vpin.C92_turned",
    "Vpin.C92_face",
    "Vpin.C92_mean",
    "Vpin.C92_wall",
    "Vpin.C92_wall_smooth",
    "Vpin.C92_prism",
    "Vpin.C92_right_angle_counterexample",
    "Vpin.C92_ends",
    "Vpin.C92_width",
    "Vpin.C92_turn_back_counterexample",
    "Vpin.C92_foot"
   ],
   "note": "The calculations are written once for any numbers. C92_same_rings, C92_same_sides, C92_same_shapes and C92_same_normals show that with the numbers of the code they are those of the models of the generators; the other theorems are about them with Mathlib's real numbers. Failures: C92_right_angle_counterexample, C92_turn_back_counterexample, and in IEEE arithmetic C64_collapse_counterexample, C67_collapse_counterexample, C66_turn_back_counterexample; C69_normals_counterexample. Rounding errors are not bounded."
  },
  {
   "property": "C93",
   "status": "proved",
   "theorems": [
    "Vpin.C93_record",
    "Vpin.C93_unchecked_counterexample",
    "Vpin.C93_resync",
    "Vpin.C93_uncounted_counterexample",
    "Vpin.C93_stream",
    "Vpin.C93_no_end_counterexample",
    "Vpin.C93_bytes",
    "Vpin.C93_until",
    "Vpin.C93_last_record_counterexample",
    "Vpin.C93_written",
    "Vpin.C93_values",
    "Vpin.C93_view",
    "Vpin.C93_beyond_counterexample"
   ],
   "note": "Model of the reader with its position and of builds with and without overflow checks (Model/BiffApi, Model/BiffPen). C93_view proves that each method agrees with the model of the reader that the file format models use (Model/Biff); beyond the end of the data reading no bytes panics in the code and not in that model (C93_beyond_counterexample). get_color (deprecated) is not modelled. Failures: C93_unchecked_counterexample, C93_no_end_counterexample, C93_last_record_counterexample, C93_uncounted_counterexample."
  },
  {
   "property": "C94",
   "status": "proved",
   "theorems": [
    "Vpin.C94_written",
    "Vpin.C94_call",
    "Vpin.C94_history",
    "Vpin.C94_history_plain",
    "Vpin.C94_parts",
    "Vpin.C94_hidden",
    "Vpin.C94_failed_save",
    "Vpin.C94_failed_save_counterexample"
   ],
   "note": "Model of every method of VpxFile with the file as it is after the call, also when it fails (Model/Handle). The specification is an abstract table (Spec/Handle). Handles from open are read-only and a save through one is not modelled; nor is which bytes reach the disk when. C94_failed_save_counterexample: a failed save destroys the game data."
  },
  {
   "property": "C95",
   "status": "proved",
   "theorems": [
    "Vpin.C95_same",
    "Vpin.C95_wall_top",
    "Vpin.C95_polygon",
    "Vpin.C95_complete",
    "Vpin.C95_convex_wall",
    "Vpin.C95_convex_polygon",
    "Vpin.C95_overlooked_side_counterexample"
   ],
   "note": "The two triangulations are written once for any numbers (Model/Outline); C95_same shows that with the numbers of the code they are the models of C60, and the other theorems are about them with Mathlib's real numbers. How far rounding moves the result is not bounded; that every simple outline is complete is false, with corners on a line (C60_simple_polygon_counterexample) and without (C95_overlooked_side_counterexample)."
  },
  {
   "property": "C96",
   "status": "proved",
   "theorems": [
    "Vpin.C96_operations",
    "Vpin.C96_scaled",
    "Vpin.C96_bumper",
    "Vpin.C96_spinner",
    "Vpin.C96_hit_target",
    "Vpin.C96_gate",
    "Vpin.C96_kicker",
    "Vpin.C96_primitive",
    "Vpin.C96_flasher",
    "Vpin.C96_insert",
    "Vpin.C96_flipper",
    "Vpin.C96_plunger",
    "Vpin.C96_normals",
    "Vpin.C96_trigger",
    "Vpin.C96_decal",
    "Vpin.C96_plunger_normals",
    "Vpin.C96_plunger_discs",
    "Vpin.C96_tables",
    "Vpin.C96_invisible",
    "Vpin.C96_gate_normals",
    "Vpin.C96_trigger_normals",
    "Vpin.C96_wire",
    "Vpin.C96_unit_normals"
   ],
   "note": "The bounds are proved by counting roundings (Lemmas/Near), for primitives along the columns of the matrix product (Lemmas/NearMatrix, NearPrimitive). That the library's sine and cosine are right to 2^-23 is a hypothesis (CloseTrig); it can be met (example). Normals divided by their calculated length in Lemmas/NearUnit, the matrix of a tilted wire in Lemmas/NearFull. Flashers and inserts (Props/RoundingFlat) are bounded from the points of their outline on, which are calculated numbers themselves. Plungers (Props/RoundingLathe, RoundingPlunger): the rings, the discs and the normals away from the axis (for radii that are not very small beside the other sizes), not the spring. Flippers (Props/RoundingFlipper): that the library's arc tangent is at most 4 and its arc sine at most 2 is a hypothesis (SaneAngles); the length must not be zero, or the code divides by zero. Not bounded: the springs of plungers and the curves of walls, ramps and rubbers."
  }
 ]
}