{
 "claims": [
  {
   "property": "C01",
   "status": "proved",
   "theorems": [
    "PdfW.Props.C01_str_reads_back"
   ],
   "note": "Every byte string, both spellings, any following bytes."
  },
  {
   "property": "C02",
   "status": "proved",
   "theorems": [
    "PdfW.Props.C02_primitives_visible_ascii"
   ],
   "note": ""
  },
  {
   "property": "C03",
   "status": "proved",
   "theorems": [
    "PdfW.Props.C03_name_reads_back"
   ],
   "note": ""
  },
  {
   "property": "C04",
   "status": "proved",
   "theorems": [
    "PdfW.Props.C04_textstr_reads_back"
   ],
   "note": ""
  },
  {
   "property": "C05",
   "status": "proved",
   "theorems": [
    "PdfW.Props.C05_from_lang_exact",
    "PdfW.Props.C05_from_lang_region_exact",
    "PdfW.Props.C05_text_with_lang_reads_back"
   ],
   "note": "Texts without U+001B; the code does not escape it (recorded in DESIGN.md)."
  },
  {
   "property": "C06",
   "status": "proved",
   "theorems": [
    "PdfW.Props.C06_int_reads_back",
    "PdfW.Props.C06_ref_reads_back",
    "PdfW.Props.C06_ref_new_exact",
    "PdfW.Props.C06_bump_never_repeats",
    "PdfW.Props.C06_bump_total"
   ],
   "note": "Includes Ref::new and bump allocation; bump past i32::MAX panics in the code and is outside the allocation statement."
  },
  {
   "property": "C07",
   "status": "proved",
   "theorems": [
    "PdfW.Props.C07_push_float_reads_back",
    "PdfW.Props.C07_push_decimal_reads_back",
    "PdfW.Props.C07_rounding_unique",
    "PdfW.Props.C07_non_finite"
   ],
   "note": "Up to the sign of zero: -0.0 is written as 0. The digit generator (ryu / std Display) is modelled by its contract, see DESIGN.md."
  },
  {
   "property": "C08",
   "status": "proved",
   "theorems": [
    "PdfW.Props.C08_date_reads_back"
   ],
   "note": ""
  },
  {
   "property": "C09",
   "status": "proved",
   "theorems": [
    "PdfW.Props.C09_pretty_reads_back"
   ],
   "note": ""
  },
  {
   "property": "C10",
   "status": "proved",
   "theorems": [
    "PdfW.Props.C10_compact_reads_back",
    "PdfW.Props.C10_empty_name_clash"
   ],
   "note": "The excluded case is proved to fail by C10_empty_name_clash."
  },
  {
   "property": "C11",
   "status": "proved",
   "theorems": [
    "PdfW.Props.C11_compact_not_longer",
    "PdfW.Props.C11_same_value"
   ],
   "note": ""
  },
  {
   "property": "C12",
   "status": "proved",
   "theorems": [
    "PdfW.Props.C12_calls_form_one_tree",
    "PdfW.Props.C12_trees_are_admitted",
    "PdfW.Props.C12_calls_read_back",
    "PdfW.Props.C12_len_counts_calls"
   ],
   "note": "Writers are dropped innermost first, as the borrow checker enforces; mem::forget is not modelled."
  },
  {
   "property": "C13",
   "status": "proved",
   "theorems": [
    "PdfW.Props.C13_stream_reads_back",
    "PdfW.Props.C13_stream_panics_iff"
   ],
   "note": ""
  },
  {
   "property": "C14",
   "status": "proved",
   "theorems": [
    "PdfW.Props.C14_offsets_point_at_objects",
    "PdfW.Props.C14_header_at_offset"
   ],
   "note": "Histories range over indirect, stream, extend, merging limits, renumber_into and every Pdf call."
  },
  {
   "property": "C15",
   "status": "proved",
   "theorems": [
    "PdfW.Props.C15_extend",
    "PdfW.Props.C15_extend_keeps_objects",
    "PdfW.Props.C15_extend_assoc",
    "PdfW.Props.C15_extend_empty"
   ],
   "note": ""
  },
  {
   "property": "C16",
   "status": "proved",
   "theorems": [
    "PdfW.Props.C16_header",
    "PdfW.Props.C16_setters_touch_only_header",
    "PdfW.Props.C16_objects_survive"
   ],
   "note": ""
  },
  {
   "property": "C17",
   "status": "proved",
   "theorems": [
    "PdfW.Props.C17_table",
    "PdfW.Props.C17_entry_meaning"
   ],
   "note": "Ids below i32::MAX (1 + i32::MAX overflows in the code), files below 10^10 bytes (the standard's limit for tables)."
  },
  {
   "property": "C18",
   "status": "proved",
   "theorems": [
    "PdfW.Props.C18_free_list_table",
    "PdfW.Props.C18_free_list_stream"
   ],
   "note": "Tables: always. Streams: if the largest id fits the field width; otherwise the code truncates links (witnessed by an example, stated exactly by C21)."
  },
  {
   "property": "C19",
   "status": "proved",
   "theorems": [
    "PdfW.Props.C19_finish",
    "PdfW.Props.C19_finish_with_xref_stream",
    "PdfW.Props.C19_finish_with_filter"
   ],
   "note": "Ids below i32::MAX. Streams also panic when the encoded table exceeds i32::MAX bytes, which the theorem includes."
  },
  {
   "property": "C20",
   "status": "proved",
   "theorems": [
    "PdfW.Props.C20_read_back"
   ],
   "note": "Objects must be representable (ItemOk, as in C08/C14). Same for xref streams in C21 (StreamFile)."
  },
  {
   "property": "C21",
   "status": "proved",
   "theorems": [
    "PdfW.Props.C21_xref_stream",
    "PdfW.Props.C21_xref_stream_filtered"
   ],
   "note": "With and without filter; the filter is an arbitrary function undone by the reader's decoder. usize is 64 bit."
  },
  {
   "property": "C22",
   "status": "proved",
   "theorems": [
    "PdfW.Props.C22_trailer",
    "PdfW.Props.C22_trailer_stream",
    "PdfW.Props.C22_trailer_filtered"
   ],
   "note": ""
  },
  {
   "property": "C23",
   "status": "proved",
   "theorems": [
    "PdfW.Props.C23_renumber_is_rewriting",
    "PdfW.Props.C23_renumber_reads_back",
    "PdfW.Props.C23_mapped_objects_ok"
   ],
   "note": "Byte-for-byte when the objects were spelled in the target's mode; by value otherwise."
  },
  {
   "property": "C24",
   "status": "proved",
   "theorems": [
    "PdfW.Props.C24_only_references_change",
    "PdfW.Props.C24_no_reference_no_change"
   ],
   "note": ""
  },
  {
   "property": "C25",
   "status": "proved",
   "theorems": [
    "PdfW.Props.C25_call_order"
   ],
   "note": ""
  },
  {
   "property": "C26",
   "status": "proved",
   "theorems": [
    "PdfW.Props.C26_identity",
    "PdfW.Props.C26_composition"
   ],
   "note": ""
  },
  {
   "property": "C27",
   "status": "proved",
   "theorems": [
    "PdfW.Props.C27_limits_content",
    "PdfW.Props.C27_limits_chunk",
    "PdfW.Props.C27_limits_pdf",
    "PdfW.Props.C27_limits_object",
    "PdfW.Props.C27_exceptions"
   ],
   "note": "Limits after any chunk/document history are the exact maxima over the facts listed by Spec.chunkFacts / pdfFacts from the call arguments alone; exceptions proved separately."
  },
  {
   "property": "C28",
   "status": "proved",
   "theorems": [
    "PdfW.Props.C28_merge_laws",
    "PdfW.Props.C28_merge_least",
    "PdfW.Props.C28_order_independent",
    "PdfW.Props.C28_monotone"
   ],
   "note": "Semilattice laws on reachable limits, least upper bound, monotonicity, and order independence for whole histories."
  },
  {
   "property": "C29",
   "status": "proved",
   "theorems": [
    "PdfW.Props.C29_pretty_reads_back",
    "PdfW.Props.C29_compact_reads_back",
    "PdfW.Props.C29_same_operations",
    "PdfW.Props.C29_methods_distinct",
    "PdfW.Props.C29_empty_name_clash"
   ],
   "note": "All operator methods and the generic op, pretty and compact; typed methods are pairwise distinguishable; the empty-name exclusion in compact mode is shown necessary."
  },
  {
   "property": "C30",
   "status": "proved",
   "theorems": [
    "PdfW.Props.C30_nesting_depth",
    "PdfW.Props.C30_depth_unique",
    "PdfW.Props.C30_finish"
   ],
   "note": "Depth equals the greatest excess of q over Q among the tails of the stream as read back; raw op(\"q\") is excluded because the code does not count it."
  },
  {
   "property": "C31",
   "status": "proved",
   "theorems": [
    "PdfW.Props.C31_cmap_two_byte",
    "PdfW.Props.C31_cmap_one_byte",
    "PdfW.Props.C31_new",
    "PdfW.Props.C31_comment_injection"
   ],
   "note": ""
  },
  {
   "property": "C32",
   "status": "proved",
   "theorems": [
    "PdfW.Props.C32_program_reads_back",
    "PdfW.Props.C32_operators_distinct",
    "PdfW.Props.C32_large_real_becomes_integer"
   ],
   "note": ""
  },
  {
   "property": "C33",
   "status": "proved",
   "theorems": [
    "PdfW.Props.C33_document",
    "PdfW.Props.C33_chunk",
    "PdfW.Props.C33_finish",
    "PdfW.Props.C33_xref_stream_never_ascii",
    "PdfW.Props.C33_xref_stream_filtered"
   ],
   "note": "ASCII iff every verbatim part (marker bytes, stream data, raw text) is; a file with an unfiltered cross-reference stream is never ASCII (C33_xref_stream_never_ascii)."
  },
  {
   "property": "C34",
   "status": "proved",
   "theorems": [
    "PdfW.Props.C34_separation_panics",
    "PdfW.Props.C34_separation_order",
    "PdfW.Props.C34_device_n_panics",
    "PdfW.Props.C34_device_n_order",
    "PdfW.Props.C34_color_spaces_read_back"
   ],
   "note": "Constructors and presets of ColorSpace, Separation, DeviceN and their attribute dictionaries; nested color spaces and functions are arbitrary written objects."
  },
  {
   "property": "C35",
   "status": "proved",
   "theorems": [
    "PdfW.Props.C35_names_17",
    "PdfW.Props.C35_names_17_distinct",
    "PdfW.Props.C35_names_20",
    "PdfW.Props.C35_name_never_panics",
    "PdfW.Props.C35_heading_level",
    "PdfW.Props.C35_names_20_distinct",
    "PdfW.Props.C35_class_17",
    "PdfW.Props.C35_class_20",
    "PdfW.Props.C35_compatible_iff_same_name",
    "PdfW.Props.C35_compat_accessors",
    "PdfW.Props.C35_role_mapping",
    "PdfW.Props.C35_default_mapping",
    "PdfW.Props.C35_mapping_not_circular",
    "PdfW.Props.C35_into_20_same_name",
    "PdfW.Props.C35_into_20_rp_defect",
    "PdfW.Props.C35_into_20_others",
    "PdfW.Props.C35_round_trip_20",
    "PdfW.Props.C35_round_trip_17"
   ],
   "note": "All role enums with their name tables, class predicates, compatibility and into_pdf_2_0 maps; the RP -> WP defect of the code is proved as a defect and excluded from the positive theorem."
  },
  {
   "property": "C36",
   "status": "proved",
   "theorems": [
    "PdfW.Props.C36_finish",
    "PdfW.Props.C36_finish_with_xref_stream"
   ],
   "note": ""
  },
  {
   "property": "C37",
   "status": "proved",
   "theorems": [
    "PdfW.Props.C37_ref_new",
    "PdfW.Props.C37_line_width",
    "PdfW.Props.C37_flatness",
    "PdfW.Props.C37_decode_parms",
    "PdfW.Props.C37_stream",
    "PdfW.Props.C37_icc_profile",
    "PdfW.Props.C37_tiling_pattern",
    "PdfW.Props.C37_outline",
    "PdfW.Props.C37_viewer_preferences",
    "PdfW.Props.C37_catalog",
    "PdfW.Props.C37_embedded_file",
    "PdfW.Props.C37_image_x_object",
    "PdfW.Props.C37_form_x_object",
    "PdfW.Props.C37_stream_shading",
    "PdfW.Props.C37_sampled_function",
    "PdfW.Props.C37_post_script_function",
    "PdfW.Props.C37_cmap_stream",
    "PdfW.Props.C37_metadata"
   ],
   "note": "Every assert of the public setters; propagated to all stream writers and the catalog. none = panic."
  },
  {
   "property": "C38",
   "status": "proved",
   "theorems": [
    "PdfW.Props.C38_cid_widths",
    "PdfW.Props.C38_empty_range"
   ],
   "note": "Calls through the typed methods (raw items via Deref excluded). The reader is Spec.readW."
  },
  {
   "property": "C39",
   "status": "proved",
   "theorems": [
    "PdfW.Props.C39_differences"
   ],
   "note": "Calls through the typed methods (raw items via Deref excluded). The reader is Spec.readDifferences."
  },
  {
   "property": "C40",
   "status": "proved",
   "theorems": [
    "PdfW.Props.C40_name_tree",
    "PdfW.Props.C40_number_tree"
   ],
   "note": "Single node; how nodes are arranged into a tree is the user's choice of Kids and Limits. NameTree::limits is a defect (C44_defect_name_tree_limits)."
  },
  {
   "property": "C41",
   "status": "proved",
   "theorems": [
    "PdfW.Props.C41_form_action_flags",
    "PdfW.Props.C41_annotation_flags",
    "PdfW.Props.C41_font_flags",
    "PdfW.Props.C41_sig_flags",
    "PdfW.Props.C41_signature_seed_value_flags",
    "PdfW.Props.C41_certificate_seed_value_flags",
    "PdfW.Props.C41_outline_item_flags",
    "PdfW.Props.C41_field_flags",
    "PdfW.Props.C41_field_flags_distinct"
   ],
   "note": "All eight flag types written to files; RICH_TEXT and RADIOS_IN_UNISON share bit 26 in the standard."
  },
  {
   "property": "C42",
   "status": "proved",
   "theorems": [
    "PdfW.Props.C42_defect_namespace_presets",
    "PdfW.Props.C42_marked_ref",
    "PdfW.Props.C42_object_ref",
    "PdfW.Props.C42_struct_children",
    "PdfW.Props.C42_struct_element",
    "PdfW.Props.C42_role_map",
    "PdfW.Props.C42_class_map",
    "PdfW.Props.C42_namespace_role_map",
    "PdfW.Props.C42_namespace",
    "PdfW.Props.C42_struct_tree_root",
    "PdfW.Props.C42_mark_info",
    "PdfW.Props.C42_page_label",
    "PdfW.Props.C42_document_info",
    "PdfW.Props.C42_pages",
    "PdfW.Props.C42_page",
    "PdfW.Props.C42_outline",
    "PdfW.Props.C42_outline_item",
    "PdfW.Props.C42_names",
    "PdfW.Props.C42_developer_extension",
    "PdfW.Props.C42_viewer_preferences",
    "PdfW.Props.C42_catalog",
    "PdfW.Props.C42_metadata"
   ],
   "note": "Generated from the source by tools/typed.py (keys of the specification from the doc comments, value types from ISO tables in the script). Reading .code covers the calls with defects, reading .standard all others."
  },
  {
   "property": "C43",
   "status": "proved",
   "theorems": [
    "PdfW.Props.C43_differences",
    "PdfW.Props.C43_encoding",
    "PdfW.Props.C43_type1_font",
    "PdfW.Props.C43_type3_font",
    "PdfW.Props.C43_type0_font",
    "PdfW.Props.C43_widths",
    "PdfW.Props.C43_cid_font",
    "PdfW.Props.C43_font_descriptor_override",
    "PdfW.Props.C43_font_descriptor",
    "PdfW.Props.C43_cmap_stream"
   ],
   "note": "As C42."
  },
  {
   "property": "C44",
   "status": "proved",
   "theorems": [
    "PdfW.Props.C44_defect_name_tree_limits",
    "PdfW.Props.C44_defect_ext_graphics_state_font",
    "PdfW.Props.C44_sampled_function",
    "PdfW.Props.C44_post_script_function",
    "PdfW.Props.C44_decode_parms",
    "PdfW.Props.C44_stream",
    "PdfW.Props.C44_name_tree",
    "PdfW.Props.C44_number_tree",
    "PdfW.Props.C44_icc_profile",
    "PdfW.Props.C44_tiling_pattern",
    "PdfW.Props.C44_function_shading",
    "PdfW.Props.C44_shading_pattern",
    "PdfW.Props.C44_stream_shading",
    "PdfW.Props.C44_separation_info",
    "PdfW.Props.C44_output_intent",
    "PdfW.Props.C44_resources",
    "PdfW.Props.C44_soft_mask",
    "PdfW.Props.C44_ext_graphics_state",
    "PdfW.Props.C44_group",
    "PdfW.Props.C44_reference",
    "PdfW.Props.C44_image_x_object",
    "PdfW.Props.C44_form_x_object"
   ],
   "note": "As C42; defects proved by C44_defect_*."
  },
  {
   "property": "C45",
   "status": "proved",
   "theorems": [
    "PdfW.Props.C45_fields",
    "PdfW.Props.C45_action",
    "PdfW.Props.C45_additional_actions",
    "PdfW.Props.C45_icon_fit",
    "PdfW.Props.C45_appearance_characteristics",
    "PdfW.Props.C45_appearance_entry",
    "PdfW.Props.C45_appearance",
    "PdfW.Props.C45_border_style",
    "PdfW.Props.C45_annotation",
    "PdfW.Props.C45_defect_border_color_cymk",
    "PdfW.Props.C45_defect_background_color_cymk",
    "PdfW.Props.C45_defect_transition_opaque",
    "PdfW.Props.C45_defect_appearance_filter",
    "PdfW.Props.C45_defect_signature_policy_commitment_type",
    "PdfW.Props.C45_defect_annot_page_close",
    "PdfW.Props.C45_defect_annot_page_close_is_visible",
    "PdfW.Props.C45_destination",
    "PdfW.Props.C45_file_spec",
    "PdfW.Props.C45_embedding_params",
    "PdfW.Props.C45_embedded_file",
    "PdfW.Props.C45_form",
    "PdfW.Props.C45_choice_options",
    "PdfW.Props.C45_field",
    "PdfW.Props.C45_signature_field_lock",
    "PdfW.Props.C45_signature_modification_detection_prevention",
    "PdfW.Props.C45_signature_time_stamp",
    "PdfW.Props.C45_certificate_seed_value",
    "PdfW.Props.C45_signature_seed_value",
    "PdfW.Props.C45_media_permissions",
    "PdfW.Props.C45_media_play_params",
    "PdfW.Props.C45_media_clip",
    "PdfW.Props.C45_rendition",
    "PdfW.Props.C45_transition"
   ],
   "note": "As C42; defects proved by C45_defect_*."
  },
  {
   "property": "C46",
   "status": "proved",
   "theorems": [
    "PdfW.Props.C46_user_property",
    "PdfW.Props.C46_track_sizes",
    "PdfW.Props.C46_layout_attributes",
    "PdfW.Props.C46_list_attributes",
    "PdfW.Props.C46_field_attributes",
    "PdfW.Props.C46_table_attributes",
    "PdfW.Props.C46_artifact_attributes",
    "PdfW.Props.C46_fe_note_attributes",
    "PdfW.Props.C46_attributes"
   ],
   "note": "As C42."
  },
  {
   "property": "C47",
   "status": "proved",
   "theorems": [
    "PdfW.Props.C47_quad_points",
    "PdfW.Props.C47_rect"
   ],
   "note": "Orientation over the exact values of the coordinates (scaled integers)."
  },
  {
   "property": "C48",
   "status": "proved",
   "theorems": [
    "PdfW.Props.C48_pages",
    "PdfW.Props.C48_pages_xref_stream",
    "PdfW.Props.C48_pages_filtered"
   ],
   "note": "Hypotheses: every object involved can be represented (ItemOk), content calls do not panic, Type/Pages/Kids/Contents are set once each (a second entry with the same key is the caller's error), the decoder undoes the declared filter. Pages that went through renumber_into are covered by C14-C16, not by this theorem."
  },
  {
   "property": "C49",
   "status": "proved",
   "theorems": [
    "PdfW.Props.C49_same_objects"
   ],
   "note": "Objects must be representable (ItemOk). Two bodies are the same if they are the same tree of calls."
  },
  {
   "property": "C50",
   "status": "proved",
   "theorems": [
    "PdfW.Props.C50_number_tree",
    "PdfW.Props.C50_page_labels",
    "PdfW.Props.C50_name_tree_lenient",
    "PdfW.Props.C50_name_tree_single",
    "PdfW.Props.C50_name_tree_limits_defect"
   ],
   "note": "The limits given must enclose the keys and not overlap between siblings (the caller's duty). C50_name_tree_limits_defect proves the consequence of defect 18."
  },
  {
   "property": "C51",
   "status": "proved",
   "theorems": [
    "PdfW.Props.C51_numbers",
    "PdfW.Props.C51_merge_finishes",
    "PdfW.Props.C51_merge_chunk",
    "PdfW.Props.C51_merge_document"
   ],
   "note": "For every document and every list of chunks (any histories), merged with the closure documented for Chunk::renumber (one allocator, one map per chunk): new numbers are consecutive and never collide, finish cannot panic, each chunk reads in the merged file as in a file of its own up to renaming, dangling references stay dangling, and the document itself is unchanged."
  },
  {
   "property": "C52",
   "status": "proved",
   "theorems": [
    "PdfW.Props.C52_checked",
    "PdfW.Props.C52_unchecked",
    "PdfW.Props.C52_unchecked_never_panics",
    "PdfW.Props.C52_unchecked_defect"
   ],
   "note": "Justifies the unbounded counters used everywhere else. C52_checked is exact (panic iff); C52_unchecked_defect shows that the bound of C52_unchecked cannot be improved."
  },
  {
   "property": "C53",
   "status": "proved",
   "theorems": [
    "PdfW.Props.C53_next",
    "PdfW.Props.C53_unchecked",
    "PdfW.Props.C53_finish_checked",
    "PdfW.Props.C53_stream_checked",
    "PdfW.Props.C53_unchecked_defect"
   ],
   "note": "Justifies the wrapping arithmetic on ids used everywhere else (C53_unchecked: the model is the code without overflow checks) and settles builds with checks; C53_unchecked_defect is defect 11."
  },
  {
   "property": "C54",
   "status": "proved",
   "theorems": [
    "PdfW.Props.C54_text",
    "PdfW.Props.C54_text_unique"
   ],
   "note": "Hypotheses as for C48, and: fonts and graphics states that are used are in the resources exactly once, ToUnicode (and the identity Encoding of Type0 fonts) are set once, shown strings are whole codes, raw operators given to op are not text operators, graphics states do not set a font (ExtGraphicsState::font is defect 25: it writes a name), CMap names free of line ends (C31). The reader does not descend into form XObjects and ignores ActualText; if a code is mapped twice the last mapping counts."
  },
  {
   "property": "C55",
   "status": "proved",
   "theorems": [
    "PdfW.Props.C55_compact_minimal",
    "PdfW.Props.C55_compact_object",
    "PdfW.Props.C55_compact_stream",
    "PdfW.Props.C55_compact_content",
    "PdfW.Props.C55_leading_space",
    "PdfW.Props.C55_pretty_layout",
    "PdfW.Props.C55_pretty_object",
    "PdfW.Props.C55_pretty_stream",
    "PdfW.Props.C55_pretty_content"
   ],
   "note": "Hypotheses as for C10/C29 (finite numbers, no empty name directly before a bare token). Minimality is over all byte strings with the same lexemes; the lines around indirect objects and stream data are fixed by the layout theorems, not claimed minimal. The leading space of content streams is defect 27."
  },
  {
   "property": "C56",
   "status": "proved",
   "theorems": [
    "PdfW.Props.C56_outline",
    "PdfW.Props.C56_no_outline",
    "PdfW.Props.C56_links"
   ],
   "note": "Hypotheses as for C48, and: the calls that set Title, Parent, Prev, Next, First, Last and Dest describe a tree, each made once; titles are plain text strings; destinations lead to pages of the page tree; links have go-to or URI actions. The reader rejects outlines whose back links are inconsistent."
  },
  {
   "property": "C57",
   "status": "proved",
   "theorems": [
    "PdfW.Props.C57_number_tree_list",
    "PdfW.Props.C57_name_tree_list",
    "PdfW.Props.C57_attachments"
   ],
   "note": "Hypotheses as for C48, and: each entry of the file specification is set at most once, EF by embedded_file or embedded_file_with_unicode; descriptions are plain text strings. Listing does not need limits, so it is not affected by defect 18."
  },
  {
   "property": "C58",
   "status": "proved",
   "theorems": [
    "PdfW.Props.C58_page_labels"
   ],
   "note": "Hypotheses as for C48 and C57; prefixes are plain text strings. The text of numbers (roman numerals, letters) is defined in the specification after ISO 32000-1, 12.4.2; the crate writes only style names."
  },
  {
   "property": "C59",
   "status": "proved",
   "theorems": [
    "PdfW.Props.C59_properties"
   ],
   "note": "Texts are plain text strings (language-tagged ones: C42). Hypotheses as for C48: each entry is set at most once, ids are distinct and below i32::MAX; dates in range."
  },
  {
   "property": "C60",
   "status": "proved",
   "theorems": [
    "PdfW.Props.C60_shown",
    "PdfW.Props.C60_shown_unique"
   ],
   "note": "Draws is a relation with one rule per method that shows text or influences it; Spec/Interpret.lean is the reader. Sample: a page with an image and a form that paints a compressed form without resources, with identifiers in place, by name and missing."
  },
  {
   "property": "C61",
   "status": "proved",
   "theorems": [
    "PdfW.Props.C61_structure",
    "PdfW.Props.C61_parents"
   ],
   "note": "Located excludes content without a page and pages that are not in the document. Attributes, classes, role maps of namespaces and the ID tree are not read. Catalog::struct_tree_root writes the root in place, so its kids cannot refer to it; the back reference is required if the root is an object. Sample: custom type with a role map, an element in a namespace, every kind of kid, text in a form, all streams compressed."
  },
  {
   "property": "C62",
   "status": "proved",
   "theorems": [
    "PdfW.Props.C62_typed_document",
    "PdfW.Props.C62_refs"
   ],
   "note": "For the writers with calls that depart from the standard (C45) the theorem holds with the code's reading for all calls and with the standard's reading for the conforming ones."
  },
  {
   "property": "C63",
   "status": "proved",
   "theorems": [
    "PdfW.Props.C63_fields"
   ],
   "note": "Values given as names, plain texts, choices; rich text, signatures and appearance streams are not read. Fields below a field have partial names (the standard tells fields from widgets by it)."
  },
  {
   "property": "C64",
   "status": "proved",
   "theorems": [
    "PdfW.Props.C64_cut_off",
    "PdfW.Props.C64_reads_back",
    "PdfW.Props.C64_chunk",
    "PdfW.Props.C64_stream",
    "PdfW.Props.C64_too_much_data",
    "PdfW.Props.C64_document",
    "PdfW.Props.C64_items_absent",
    "PdfW.Props.C64_value_missing",
    "PdfW.Props.C64_never_started",
    "PdfW.Props.C64_renumber_leaves_out"
   ],
   "note": "Interruption between two calls of the generic writers (`push`, `insert`, `primitive`, `array`, `dict`, drop); all typed writers are made of these. Not modelled: a panic inside one of these calls after part of its bytes were written (the overflow checks of C52, allocation failure), mem::forget. `C64_never_started` assumes that another object or a cross-reference table follows."
  },
  {
   "property": "C65",
   "status": "proved",
   "theorems": [
    "PdfW.Props.C65_calls_are_operations",
    "PdfW.Props.C65_cut_off",
    "PdfW.Props.C65_operations_are_admitted",
    "PdfW.Props.C65_reads_back"
   ],
   "note": "Typed methods of Content other than `op` count as one call each (C29); their own writers are operations of the same kind."
  },
  {
   "property": "C66",
   "status": "proved",
   "theorems": [
    "PdfW.Props.C66_images"
   ],
   "note": "Reader in Spec/Images.lean, relation Paints between calls and what they ask for; forms nested to any depth; numbers compared by NumIs (the f32 nearest to the decimal read)."
  },
  {
   "property": "C67",
   "status": "proved",
   "theorems": [
    "PdfW.Props.C67_fonts"
   ],
   "note": "Reader in Spec/Fonts.lean. Widths of simple fonts are those of codes first_char to last_char, with as many numbers as codes; vertical metrics and embedded encoding CMaps are not part of this statement (text extraction with ToUnicode is C54). Numbers compared by NumIs."
  },
  {
   "property": "C68",
   "status": "proved",
   "theorems": [
    "PdfW.Props.C68_display"
   ],
   "note": "Imaging machine and reader in Spec/Display.lean; the same machine gives the calls their meaning, with environments justified by what was written. Fonts, color spaces, patterns, shadings and graphics state dictionaries appear as the values in the resources (what fonts and images contain is C66 and C67). Optional content counts as visible; raw operators given by name must not be operators of the machine. Numbers compared by NumIs, resources by Denotes."
  },
  {
   "property": "C69",
   "status": "proved",
   "theorems": [
    "PdfW.Props.C69_name_plain",
    "PdfW.Props.C69_name_shortest",
    "PdfW.Props.C69_str_plain",
    "PdfW.Props.C69_str_ascii",
    "PdfW.Props.C69_str_hex",
    "PdfW.Props.C69_text_plain",
    "PdfW.Props.C69_text_utf16",
    "PdfW.Props.C69_int_shortest",
    "PdfW.Props.C69_float_integer",
    "PdfW.Props.C69_float_precision",
    "PdfW.Props.C69_decimal_precision"
   ],
   "note": "Complements C01-C07, which say that what is written reads back. The digits chosen by ryu and core are modelled by contract (DESIGN.md)."
  },
  {
   "property": "C70",
   "status": "proved",
   "theorems": [
    "PdfW.Props.C70_annotations"
   ],
   "note": "An independent reader runs the imaging machine of C68 on every appearance stream. Border style, appearance characteristics, actions and file specifications of annotations are covered per dictionary (C20-C36) or by C56 (links), not here. The entry T is read as the author except in widgets, where it is the name of the field."
  },
  {
   "property": "C71",
   "status": "proved",
   "theorems": [
    "PdfW.Props.C71_page_setups"
   ],
   "note": "There are no methods for the crop box and rotation of a node of the page tree; the statement covers nodes that set them through Dict::pair. Transition::opaque writes the wrong key (a defect reported in DESIGN.md); the entry B is not read here. Additional actions and associated files are covered by C56 and per dictionary."
  },
  {
   "property": "C72",
   "status": "proved",
   "theorems": [
    "PdfW.Props.C72_colors"
   ],
   "note": "Indexed and uncolored pattern spaces have a named base space, as in the API; the presets are covered as the calibrated spaces they write. Required entries are those ISO 32000 requires; nested spaces and functions are read up to a given depth, for every depth. Numbers are read back as in C03 (NumIs). The graphics state of a shading pattern is read as the code writes it (defects of ExtGraphicsState are reported in DESIGN.md)."
  },
  {
   "property": "C73",
   "status": "proved",
   "theorems": [
    "PdfW.Props.C73_viewing"
   ],
   "note": "Texts given without language tags (`TextStr`). The entries must be given at most once each. An output intent needs a subtype and an identifier, as in the standard."
  },
  {
   "property": "C74",
   "status": "proved",
   "theorems": [
    "PdfW.Props.C74_events"
   ],
   "note": "Each action entry is given at most once. `annot_page_close` is left out because it writes the key of another event (defect 23). Remote destinations are named ones. Texts given without language tags. Actions of document, pages and annotations in place; named scripts as objects."
  },
  {
   "property": "C75",
   "status": "proved",
   "theorems": [
    "PdfW.Props.C75_semantics",
    "PdfW.Props.C75_identifiers"
   ],
   "note": "`C75_semantics` and `C75_identifiers`. Each entry of an element is given at most once; an attribute object is written by one of the methods for owners, or `owner` and raw entries. Keys of role maps and class maps distinct. Preset namespaces have the names that the code writes (defect 24). Texts given without language tags."
  },
  {
   "property": "C76",
   "status": "proved",
   "theorems": [
    "PdfW.Props.C76_states"
   ],
   "note": "Proved for all documents whose pages and resources were written through the typed writers. ExtGraphicsState::font is left out: it writes a name where a reference is required (defect list in DESIGN.md). Transfer functions given as an array of four cannot be expressed through the API. Halftones are found by their number: the crate has no writer for them."
  },
  {
   "property": "C77",
   "status": "proved",
   "theorems": [
    "PdfW.Props.C77_form_details"
   ],
   "note": "Proved for all documents whose form and fields were written through the typed writers; texts are given without language tags. SignatureSeedValue::appearance_filter and CertificateSeedValue::signature_policy_commitment_type write under the key of another entry (defect list in DESIGN.md): they are excluded where they would clash and not read where they do not."
  },
  {
   "property": "C78",
   "status": "proved",
   "theorems": [
    "PdfW.Props.C78_borders"
   ],
   "note": "Proved for all documents whose annotations were written through the typed writers; captions without language tags. border_color_cymk and background_color_cymk write the components in the order of their parameters, C Y M K (defect list in DESIGN.md), and are left out: colors are transparent, gray or RGB."
  },
  {
   "property": "C79",
   "status": "proved",
   "theorems": [
    "PdfW.Props.C79_associated",
    "PdfW.Props.C79_object",
    "PdfW.Props.C79_reference"
   ],
   "note": "Proved for all documents whose objects were written through the typed writers; descriptions and page labels without language tags. The typed API writes file specifications inside the array; ISO 32000-2 allows this for AF, too."
  },
  {
   "property": "C80",
   "status": "proved",
   "theorems": [
    "PdfW.Props.C80_streams"
   ],
   "note": "Proved for an arbitrary decoder. The API can declare one filter per stream; raw entries that set Filter or DecodeParms are outside of the hypotheses."
  },
  {
   "property": "C81",
   "status": "proved",
   "theorems": [
    "PdfW.Props.C81_metrics",
    "PdfW.Props.C81_cids"
   ],
   "note": "The style of a descriptor is read as the twelve bytes of Table 124. The CID set must be a stream whose data the reader can decode."
  },
  {
   "property": "C82",
   "status": "proved",
   "theorems": [
    "PdfW.Props.C82_list",
    "PdfW.Props.C82_find",
    "PdfW.Props.C82_unset"
   ],
   "note": "Looking up a name uses the limits as this crate writes them, that is, as names (defect 18); listing does not use limits."
  },
  {
   "property": "C83",
   "status": "proved",
   "theorems": [
    "PdfW.Props.C83_image",
    "PdfW.Props.C83_form",
    "PdfW.Props.C83_metadata",
    "PdfW.Props.C83_no_metadata"
   ],
   "note": "The dictionaries of alternate images have no typed writer; they are assumed to be written as Table 91 has it."
  },
  {
   "property": "C84",
   "status": "proved",
   "theorems": [
    "PdfW.Props.C84_namespaces"
   ],
   "note": "For the three preset names the namespace reads as what the code writes (defect 24 in DESIGN.md)."
  },
  {
   "property": "C85",
   "status": "proved",
   "theorems": [
    "PdfW.Props.C85_cmaps",
    "PdfW.Props.C85_type1",
    "PdfW.Props.C85_type3"
   ],
   "note": ""
  },
  {
   "property": "C86",
   "status": "proved",
   "theorems": [
    "PdfW.Props.C86_resources",
    "PdfW.Props.C86_none"
   ],
   "note": ""
  },
  {
   "property": "C87",
   "status": "proved",
   "theorems": [
    "PdfW.Props.C87_page_count",
    "PdfW.Props.C87_page_by_number",
    "PdfW.Props.C87_no_other_page",
    "PdfW.Props.C87_same_page"
   ],
   "note": ""
  },
  {
   "property": "C88",
   "status": "proved",
   "theorems": [
    "PdfW.Props.C88_pages",
    "PdfW.Props.C88_shown_on_pages",
    "PdfW.Props.C88_shown_by_form",
    "PdfW.Props.C88_display",
    "PdfW.Props.C88_images",
    "PdfW.Props.C88_image"
   ],
   "note": ""
  },
  {
   "property": "C89",
   "status": "proved",
   "theorems": [
    "PdfW.Props.C89_not_exceeded",
    "PdfW.Props.C89_attained",
    "PdfW.Props.C89_strings_attained",
    "PdfW.Props.C89_content",
    "PdfW.Props.C89_text_counted_in_utf8"
   ],
   "note": ""
  },
  {
   "property": "C90",
   "status": "proved",
   "theorems": [
    "PdfW.Props.C90_unfinished",
    "PdfW.Props.C90_truncated",
    "PdfW.Props.C90_same_as_table",
    "PdfW.Props.C90_whole_file",
    "PdfW.Props.C90_marker_needed"
   ],
   "note": "C90_marker_needed shows a marker with a line feed that spoils the first object for this reader; the crate documents set_binary_marker without this condition."
  },
  {
   "property": "C91",
   "status": "proved",
   "theorems": [
    "PdfW.Props.C91_characters",
    "PdfW.Props.C91_shown"
   ],
   "note": "The graphics state at the beginning of a glyph is taken to be the initial one in glyph space."
  },
  {
   "property": "C92",
   "status": "proved",
   "theorems": [
    "PdfW.Props.C92_marks",
    "PdfW.Props.C92_sequence",
    "PdfW.Props.C92_owners"
   ],
   "note": "For sequences begun in a form, the structure element is not looked up (the form has its own key in the parent tree)."
  }
 ]
}