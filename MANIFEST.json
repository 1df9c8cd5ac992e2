{
 "claims": [
  {
   "property": "C01",
   "status": "proved",
   "theorems": [
    "Hwp.Props.C01_header_roundtrip"
   ],
   "note": "Full statement, including the exact byte layout."
  },
  {
   "property": "C02",
   "status": "partial",
   "theorems": [
    "Hwp.Props.C02_roundtrip_fails_on_empty_payload",
    "Hwp.Props.C02_roundtrip_partial",
    "Hwp.Props.C02_roundtrip_outcome",
    "Hwp.Props.C02_seqno_consecutive"
   ],
   "note": "False in the code for empty payloads (readn raises Eof); proved for nonempty payloads, plus the exact outcome when an empty payload occurs."
  },
  {
   "property": "C03",
   "status": "partial",
   "theorems": [
    "Hwp.Props.C03_reexport_fails",
    "Hwp.Props.C03_reexport_iff_canonical_partial"
   ],
   "note": "False for accepted non-canonical streams; proved: re-export is the identity exactly on canonical streams."
  },
  {
   "property": "C04",
   "status": "partial",
   "theorems": [
    "Hwp.Props.C04_truncation_silently_accepted",
    "Hwp.Props.C04_truncation_partial",
    "Hwp.Props.C04_boundary_cut"
   ],
   "note": "False in the code (short payload returned silently); proved: exact outcome of every cut."
  },
  {
   "property": "C05",
   "status": "proved",
   "theorems": [
    "Hwp.Props.C05_groups_partition",
    "Hwp.Props.C05_groups_failing_source"
   ],
   "note": "Full statement, plus behaviour when the source fails."
  },
  {
   "property": "C06",
   "status": "proved",
   "theorems": [
    "Hwp.Props.C06_range",
    "Hwp.Props.C06_range_err",
    "Hwp.Props.C06_record",
    "Hwp.Props.C06_record_unreadable",
    "Hwp.Props.C06_treegroup",
    "Hwp.Props.C06_treegroup_unreadable"
   ],
   "note": "Full statement for range/index/treegroup."
  },
  {
   "property": "C07",
   "status": "proved",
   "theorems": [
    "Hwp.Props.C07_lazy_consumer",
    "Hwp.Props.C07_draining_consumer",
    "Hwp.Props.C07_undrained_group_ends_iteration"
   ],
   "note": "Exact outcome for every consumption schedule."
  },
  {
   "property": "C08",
   "status": "proved",
   "theorems": [
    "Hwp.Props.C08_prefix_event_nested",
    "Hwp.Props.C08_prefix_event_fails_iff",
    "Hwp.Props.C08_below_base_witness"
   ],
   "note": "Well nested iff the levels are reachable steps; ill-formed levels raise; a level below the first one is shown to be accepted."
  },
  {
   "property": "C09",
   "status": "proved",
   "theorems": [
    "Hwp.Props.C09_build_of_events",
    "Hwp.Props.C09_events_of_build",
    "Hwp.Props.C09_tree_events_nested",
    "Hwp.Props.C09_unclosed"
   ],
   "note": "Both directions, for all trees and all well nested event streams."
  },
  {
   "property": "C10",
   "status": "proved",
   "theorems": [
    "Hwp.Props.C10_ancestors_agree",
    "Hwp.Props.C10_ancestors_enclosing"
   ],
   "note": "Both computations agree and give the path to the root."
  },
  {
   "property": "C11",
   "status": "proved",
   "theorems": [
    "Hwp.Props.C11_iter_subevents",
    "Hwp.Props.C11_skip_then_next"
   ],
   "note": "Exactly the events up to the matching end event; the rest stays unread."
  },
  {
   "property": "C12",
   "status": "partial",
   "theorems": [
    "Hwp.Props.C12_tiling_fails_on_truncated_control",
    "Hwp.Props.C12_tiling_partial",
    "Hwp.Props.C12_tiling_outcome",
    "Hwp.Props.C12_chunk_contents"
   ],
   "note": "False for a payload ending inside a control (accepted, range beyond the payload); proved otherwise, with exact outcome and chunk contents for every payload."
  },
  {
   "property": "C13",
   "status": "proved",
   "theorems": [
    "Hwp.Props.C13_chunk_kinds"
   ],
   "note": "Full statement, plus maximality of text chunks."
  },
  {
   "property": "C14",
   "status": "partial",
   "theorems": [
    "Hwp.Props.C14_source",
    "Hwp.Props.C14_missing_codes",
    "Hwp.Props.C14_fails_on_missing_codes",
    "Hwp.Props.C14_splits_partial",
    "Hwp.Props.C14_kinds"
   ],
   "note": "False: codes 0x19-0x1d raise KeyError in every context; proved for all other codes. C14_kinds is the complete table of kinds."
  },
  {
   "property": "C15",
   "status": "proved",
   "theorems": [
    "Hwp.Props.C15_roundtrip"
   ],
   "note": "Full statement for all known controls and arbitrary parameter bytes."
  },
  {
   "property": "C16",
   "status": "proved",
   "theorems": [
    "Hwp.Props.C16_split",
    "Hwp.Props.C16_late_first_shape",
    "Hwp.Props.C16_no_shapes",
    "Hwp.Props.C16_boundary_inside_control"
   ],
   "note": "Full statement; also the exact exception when the first shape starts late, when there is no shape, and when a boundary lies inside a control."
  },
  {
   "property": "C17",
   "status": "partial",
   "theorems": [
    "Hwp.Props.C17_fails_outside_bmp",
    "Hwp.Props.C17_shaped_partial",
    "Hwp.Props.C17_payload_partial"
   ],
   "note": "False for characters outside the BMP (cut by characters, positions in UTF-16 units); proved for BMP text, also end to end from the payload bytes."
  },
  {
   "property": "C18",
   "status": "proved",
   "theorems": [
    "Hwp.Props.C18_lines",
    "Hwp.Props.C18_line_segmented"
   ],
   "note": "Full statement, for the grouping alone and for the whole step including cutting at line borders."
  },
  {
   "property": "C19",
   "status": "proved",
   "theorems": [
    "Hwp.Props.C19_lang_of_char",
    "Hwp.Props.C19_tokenize",
    "Hwp.Props.C19_unique"
   ],
   "note": "tokenize over the language classification of code points; concatenation, non-emptiness and maximality of tokens."
  },
  {
   "property": "C20",
   "status": "partial",
   "theorems": [
    "Hwp.Props.C20_tree",
    "Hwp.Props.C20_counterexample",
    "Hwp.Props.C20_nested_partial",
    "Hwp.Props.C20_keeps_other_events"
   ],
   "note": "False when a field is closed or left open inside content nested in a line (witness); proved when fields start and end inside lines and nested content ends the fields it starts, with the exact resulting tree (C20_tree). Keeping all other events is proved for every stream."
  },
  {
   "property": "C21",
   "status": "proved",
   "theorems": [
    "Hwp.Props.C21_listheader",
    "Hwp.Props.C21_tablebody",
    "Hwp.Props.C21_keeps_elements",
    "Hwp.Props.C21_toplevel_unclosed"
   ],
   "note": "Refinement to the tree transformation for both uses of the pass; a list header at the top level is never closed (witness)."
  },
  {
   "property": "C22",
   "status": "partial",
   "theorems": [
    "Hwp.Props.C22_rows_partial",
    "Hwp.Props.C22_row_sizes",
    "Hwp.Props.C22_zero_width_counterexample",
    "Hwp.Props.C22_extra_cell"
   ],
   "note": "Proved for positive row widths and matching cell counts, nested tables included; a declared empty row takes two cells (witness), surplus cells raise IndexError (witness)."
  },
  {
   "property": "C23",
   "status": "proved",
   "theorems": [
    "Hwp.Props.C23_inline",
    "Hwp.Props.C23_no_loss",
    "Hwp.Props.C23_missing_control"
   ],
   "note": "Refinement to the tree transformation and permutation of elements; shape assumptions (InlineOk) are those of the preceding pass's output."
  },
  {
   "property": "C24",
   "status": "proved",
   "theorems": [
    "Hwp.Props.C24_wrap",
    "Hwp.Props.C24_extract",
    "Hwp.Props.C24_found",
    "Hwp.Props.C24_section_id",
    "Hwp.Props.C24_no_section_definition"
   ],
   "note": "Refinement to the tree transformation; without a section definition everything is lost and (END, None) is emitted (proved)."
  },
  {
   "property": "C25",
   "status": "partial",
   "theorems": [
    "Hwp.Props.C25_columns_partial",
    "Hwp.Props.C25_keeps_events",
    "Hwp.Props.C25_counterexample",
    "Hwp.Props.C25_toplevel"
   ],
   "note": "False when a paragraph starting columns is a direct child of a paragraph (witness); otherwise proved. Keeping all events is proved for every stream."
  },
  {
   "property": "C26",
   "status": "proved",
   "theorems": [
    "Hwp.Props.C26_events_unchanged",
    "Hwp.Props.C26_ids",
    "Hwp.Props.C26_unique"
   ],
   "note": "ids count earlier start events of the same kind; uniqueness; events unchanged."
  },
  {
   "property": "C27",
   "status": "proved",
   "theorems": [
    "Hwp.Props.C27_text_unescapes",
    "Hwp.Props.C27_attribute_unescapes"
   ],
   "note": "All strings; escape/quoteattr of the standard library are modelled as documented."
  },
  {
   "property": "C28",
   "status": "partial",
   "theorems": [
    "Hwp.Props.C28_document_parses_back_partial",
    "Hwp.Props.C28_document_determines_content_partial",
    "Hwp.Props.C28_carriage_return_lost",
    "Hwp.Props.C28_control_character_not_well_formed",
    "Hwp.Props.C28_attribute_names"
   ],
   "note": "Parser written from XML 1.0 (Char, Name, end-of-line handling, attribute normalisation, unique attributes, matching tags). Missing: text with carriage returns (lost, witness) and characters outside the XML Char production (document not well formed, witness)."
  },
  {
   "property": "C29",
   "status": "proved",
   "theorems": [
    "Hwp.Props.C29_embedded_data_recoverable",
    "Hwp.Props.C29_lines_short",
    "Hwp.Props.C29_embedded_stream",
    "Hwp.Props.C29_stream_name"
   ],
   "note": "base64 modelled after RFC 4648."
  },
  {
   "property": "C30",
   "status": "proved",
   "theorems": [
    "Hwp.Props.C30_group_is_its_bits",
    "Hwp.Props.C30_group_depends_on_its_bits_only",
    "Hwp.Props.C30_group_range",
    "Hwp.Props.C30_disjoint_groups_independent",
    "Hwp.Props.C30_covering_groups_determine_value"
   ],
   "note": "Bit groups over unsigned base types (all Flags in the sources use unsigned bases): value, dependence on own bits only, range, independence, covering groups."
  },
  {
   "property": "C31",
   "status": "proved",
   "theorems": [
    "Hwp.Props.C31_forms_parsed",
    "Hwp.Props.C31_only_forms_accepted",
    "Hwp.Props.C31_rejection"
   ],
   "note": "Both directions: accepted argument lists are exactly the flattenings of the four forms; pushback modelled as not consuming the argument."
  },
  {
   "property": "C32",
   "status": "proved",
   "theorems": [
    "Hwp.Props.C32_declaration_accepted",
    "Hwp.Props.C32_value_preserved",
    "Hwp.Props.C32_named_member",
    "Hwp.Props.C32_name_of_value",
    "Hwp.Props.C32_positional_numbers"
   ],
   "note": "Objects carry an identity; keyword items are taken in the given order."
  },
  {
   "property": "C33",
   "status": "proved",
   "theorems": [
    "Hwp.Props.C33_read_encoded",
    "Hwp.Props.C33_encode_read",
    "Hwp.Props.C33_read_total"
   ],
   "note": "All twelve integer primitives; DOUBLE is not modelled."
  },
  {
   "property": "C34",
   "status": "proved",
   "theorems": [
    "Hwp.Props.C34_read_encoded",
    "Hwp.Props.C34_encode_read",
    "Hwp.Props.C34_truncated_string_accepted"
   ],
   "note": "Round trip for all scalar strings; the converse theorem and the witness show that a string cut off by the end of the stream is silently shortened."
  },
  {
   "property": "C35",
   "status": "proved",
   "theorems": [
    "Hwp.Props.C35_dump_lossless",
    "Hwp.Props.C35_sixteen_per_line",
    "Hwp.Props.C35_crust"
   ],
   "note": "Dump without and with crust."
  },
  {
   "property": "C36",
   "status": "proved",
   "theorems": [
    "Hwp.Props.C36_prim_consumes",
    "Hwp.Props.C36_payload_is_parsed_and_unparsed"
   ],
   "note": "Any declaration whose primitive readers consume a prefix; proved for the integer primitives."
  },
  {
   "property": "C37",
   "status": "proved",
   "theorems": [
    "Hwp.Props.C37_pipeline_reads_declaration",
    "Hwp.Props.C37_pipeline_result_unique",
    "Hwp.Props.C37_struct_first_member",
    "Hwp.Props.C37_member_stored"
   ],
   "note": "Full pipeline refinement for well-formed declarations (choices of a selective type not selective, selective members without condition, distinct keys), for any version, context, payload; termination included."
  },
  {
   "property": "C38",
   "status": "proved",
   "theorems": [
    "Hwp.Props.C38_filter_exact",
    "Hwp.Props.C38_member_present_iff",
    "Hwp.Props.C38_monotonic",
    "Hwp.Props.C38_filtered_names",
    "Hwp.Props.C38_monotonic_deep"
   ],
   "note": "Exactness at every depth and monotonicity."
  },
  {
   "property": "C39",
   "status": "proved",
   "theorems": [
    "Hwp.Props.C39_cache_transparent"
   ],
   "note": "All finite histories."
  },
  {
   "property": "C40",
   "status": "proved",
   "theorems": [
    "Hwp.Props.C40_same_type_iff_same_parameters"
   ],
   "note": "Type parameters compared with a lawful equality; FixedArrayType and VariableLengthArrayType each have their own table."
  },
  {
   "property": "C41",
   "status": "proved",
   "theorems": [
    "Hwp.Props.C41_total_and_sized",
    "Hwp.Props.C41_digest_position",
    "Hwp.Props.C41_digest_recovered"
   ],
   "note": "All byte strings; the digest position and recovery of a hidden digest are proved too."
  },
  {
   "property": "C42",
   "status": "proved",
   "theorems": [
    "Hwp.Props.C42_involution",
    "Hwp.Props.C42_key_stream"
   ],
   "note": "All 256-byte heads; the key stream is characterised independently of the loop."
  },
  {
   "property": "C43",
   "status": "proved",
   "theorems": [
    "Hwp.Props.C43_recovers_plaintext",
    "Hwp.Props.C43_other_records_rejected",
    "Hwp.Props.C43_partial_block_rejected",
    "Hwp.Props.C43_tail_position",
    "Hwp.Props.C43_decrypts_from_260"
   ],
   "note": "Any block cipher pair that is inverse on 16-byte blocks under the derived key; AES itself is a parameter."
  },
  {
   "property": "C44",
   "status": "proved",
   "theorems": [
    "Hwp.Props.C44_leafs_are_the_streams",
    "Hwp.Props.C44_leafs_nodup",
    "Hwp.Props.C44_reported_iff_opens",
    "Hwp.Props.C44_open_reported"
   ],
   "note": "All storage trees whose sibling names are distinct and contain no '/'."
  },
  {
   "property": "C45",
   "status": "partial",
   "theorems": [
    "Hwp.Props.C45_walk_reaches_depth_two",
    "Hwp.Props.C45_deep_stream_not_reached",
    "Hwp.Props.C45_walk_complete_partial",
    "Hwp.Props.C45_walk_sound"
   ],
   "note": "Fails for streams nested deeper than two levels (witness given); the reached set is characterised exactly and completeness is proved for trees of depth at most two."
  },
  {
   "property": "C46",
   "status": "partial",
   "theorems": [
    "Hwp.Props.C46_collision",
    "Hwp.Props.C46_storage_name_fails",
    "Hwp.Props.C46_unpack_partial",
    "Hwp.Props.C46_streams_written_partial"
   ],
   "note": "Fails for names that collide after replacing control character 5 and for storages with that character in the name (witnesses given); the whole resulting tree is proved otherwise."
  },
  {
   "property": "C47",
   "status": "proved",
   "theorems": [
    "Hwp.Props.C47_opens_iff",
    "Hwp.Props.C47_rejects",
    "Hwp.Props.C47_inner_streams",
    "Hwp.Props.C47_top_streams",
    "Hwp.Props.C47_same_names",
    "Hwp.Props.C47_missing",
    "Hwp.Props.C47_inner_storages"
   ],
   "note": "All flag words, contents and stacks of layers; zlib and AES are parameters."
  },
  {
   "property": "C48",
   "status": "partial",
   "theorems": [
    "Hwp.Props.C48_sections_partial",
    "Hwp.Props.C48_document_sections_partial",
    "Hwp.Props.C48_int_of_decimal",
    "Hwp.Props.C48_leading_zero_fails",
    "Hwp.Props.C48_duplicate"
   ],
   "note": "Fails for names like 'Section01' (witnesses given); proved whenever the numbers are written in plain decimal form, for the section list and for whole documents. int() is modelled for ASCII text."
  },
  {
   "property": "C49",
   "status": "proved",
   "theorems": [
    "Hwp.Props.C49_version_order",
    "Hwp.Props.C49_header_layout"
   ],
   "note": "All headers."
  },
  {
   "property": "C50",
   "status": "proved",
   "theorems": [
    "Hwp.Props.C50_fallback"
   ],
   "note": "All stored streams and any inflate function."
  },
  {
   "property": "C51",
   "status": "partial",
   "theorems": [
    "Hwp.Props.C51_reads_deliver_everything",
    "Hwp.Props.C51_oversized",
    "Hwp.Props.C51_sized_read_partial",
    "Hwp.Props.C51_exact_while_generating"
   ],
   "note": "Fails: a sized read after the generator is exhausted returns everything left (witness given). Proved: no loss or reordering in any history, and exact sizes while the generator has chunks."
  },
  {
   "property": "C52",
   "status": "partial",
   "theorems": [
    "Hwp.Props.C52_json_array_partial",
    "Hwp.Props.C52_empty_not_json"
   ],
   "note": "Fails for the empty list (witness against every reading of values); proved for all nonempty lists against the JSON array grammar."
  },
  {
   "property": "C53",
   "status": "proved",
   "theorems": [
    "Hwp.Props.C53_first_value_stays",
    "Hwp.Props.C53_called_once",
    "Hwp.Props.C53_assignment",
    "Hwp.Props.C53_no_call_when_known"
   ],
   "note": "All histories of accesses and assignments, functions that may raise."
  },
  {
   "property": "C54",
   "status": "partial",
   "theorems": [
    "Hwp.Props.C54_reads_then_all",
    "Hwp.Props.C54_size_and_offset",
    "Hwp.Props.C54_early_end",
    "Hwp.Props.C54_end_partial",
    "Hwp.Props.C54_decompress_gen"
   ],
   "note": "Fails: the reader's loop ends after one chunk (witness for every stream longer than 8196 bytes). Proved: nothing lost in any history, sizes and offsets, and the end condition for streams of one chunk; also the chunk generator of compressed.py. zlib is a parameter."
  },
  {
   "property": "C55",
   "status": "partial",
   "theorems": [
    "Hwp.Props.C55_stream_header_as_declared",
    "Hwp.Props.C55_set_header_as_declared",
    "Hwp.Props.C55_dictionary_as_declared",
    "Hwp.Props.C55_typed_value_as_declared",
    "Hwp.Props.C55_lookup",
    "Hwp.Props.C55_value_read",
    "Hwp.Props.C55_stored_properties_found_partial",
    "Hwp.Props.C55_without_dictionary",
    "Hwp.Props.C55_unknown_value_type",
    "Hwp.Props.C55_type_code_has_17_bits",
    "Hwp.Props.C55_summary_ids_distinct",
    "Hwp.Props.C55_class_id"
   ],
   "note": "The readers of property sets are shown to be what read_type does for the declarations. C55_lookup: in a set that could be read, an id gives the value at the offset of the last table entry for it, unknown ids are missing. C55_stored_properties_found_partial: values laid out anywhere are found; needs a dictionary property and the three known value types, and the failures without them are proved (C55_without_dictionary, C55_unknown_value_type, C55_type_code_has_17_bits)."
  },
  {
   "property": "C56",
   "status": "proved",
   "theorems": [
    "Hwp.Props.C56_partition",
    "Hwp.Props.C56_prefix",
    "Hwp.Props.C56_charshape_face",
    "Hwp.Props.C56_no_idmappings"
   ],
   "note": "Face names by language are consecutive pieces of the document's list with the declared sizes; also the face name of a character shape."
  },
  {
   "property": "C57",
   "status": "proved",
   "theorems": [
    "Hwp.Props.C57_pipeline",
    "Hwp.Props.C57_content"
   ],
   "note": "Proper sections are defined on the records only (Spec/Pipeline.lean): the condition on fields is stated on the paragraphs with their control characters placed. C57_pipeline names the resulting tree; C57_content states what is kept."
  },
  {
   "property": "C58",
   "status": "partial",
   "theorems": [
    "Hwp.Props.C58_parent_link_missing",
    "Hwp.Props.C58_parent_link_partial"
   ],
   "note": "False in the code after a level decrease; proved up to the first decrease."
  },
  {
   "property": "C59",
   "status": "proved",
   "theorems": [
    "Hwp.Props.C59_channels_are_bytes",
    "Hwp.Props.C59_channels_determine_color",
    "Hwp.Props.C59_text"
   ],
   "note": "Signed 32-bit colors; Python's & on negative numbers modelled by two's complement."
  },
  {
   "property": "C60",
   "status": "partial",
   "theorems": [
    "Hwp.Props.C60_only_ParseError_partial",
    "Hwp.Props.C60_flags_raise_KeyError"
   ],
   "note": "Fails for flags members (KeyError, witness given); proved for declarations without flags whose references and conditions do not fail."
  },
  {
   "property": "C61",
   "status": "partial",
   "theorems": [
    "Hwp.Props.C61_decides_partial",
    "Hwp.Props.C61_no_header",
    "Hwp.Props.C61_short_header_raises",
    "Hwp.Props.C61_yes_iff"
   ],
   "note": "Fails for FileHeader streams of at most 40 bytes (the exception is characterised); proved for all others, and the positive answers are characterised exactly."
  },
  {
   "property": "C62",
   "status": "proved",
   "theorems": [
    "Hwp.Props.C62_section_version",
    "Hwp.Props.C62_text"
   ],
   "note": "All documents."
  },
  {
   "property": "C63",
   "status": "proved",
   "theorems": [
    "Hwp.Props.C63_list_headers",
    "Hwp.Props.C63_table_lists",
    "Hwp.Props.C63_parent_parsed",
    "Hwp.Props.C63_top_level_list_header_fails"
   ],
   "note": "Proved for every list header that some record encloses, for all readers of member values (parameter). One that no record encloses makes the parser raise KeyError (C63_top_level_list_header_fails)."
  },
  {
   "property": "C64",
   "status": "proved",
   "theorems": [
    "Hwp.Props.C64_order",
    "Hwp.Props.C64_members",
    "Hwp.Props.C64_payload_accounted",
    "Hwp.Props.C64_control_type",
    "Hwp.Props.C64_control_types_distinct",
    "Hwp.Props.C64_unknown_tag",
    "Hwp.Props.C64_tag_type"
   ],
   "note": "Proved for all readers; what a class reads from bytes is a parameter here and the subject of C36-C39. That the class of unknown tags reads nothing is a hypothesis of C64_unknown_tag."
  },
  {
   "property": "C65",
   "status": "proved",
   "theorems": [
    "Hwp.Props.C65_models_of_stream",
    "Hwp.Props.C65_model_of_record",
    "Hwp.Props.C65_treegroups",
    "Hwp.Props.C65_damaged_stream_loses_group"
   ],
   "note": "Proved for streams that are read without error and start at level 0; C65_damaged_stream_loses_group shows that for a damaged stream the models of the last group are not given out."
  },
  {
   "property": "C66",
   "status": "proved",
   "theorems": [
    "Hwp.Props.C66_texts",
    "Hwp.Props.C66_text_kept",
    "Hwp.Props.C66_no_shapes",
    "Hwp.Props.C66_empty_paragraph"
   ],
   "note": "For trees whose text records fit together (ParaOk: ranges consecutive, shapes and lines start at 0, ascend and do not begin inside a control character, all control characters have a kind); what happens otherwise is C14, C16 and C66_no_shapes."
  },
  {
   "property": "C67",
   "status": "proved",
   "theorems": [
    "Hwp.Props.C67_record_element",
    "Hwp.Props.C67_well_formed",
    "Hwp.Props.C67_names_distinct",
    "Hwp.Props.C67_models",
    "Hwp.Props.C67_unknown_storage"
   ],
   "note": "Proved for contents as declared (which C68 gives for parsed ones). C67_unknown_storage: BinData of an unknown storage type is shown as the text of a Python object. repr of floats, strings and objects is a parameter."
  },
  {
   "property": "C68",
   "status": "proved",
   "theorems": [
    "Hwp.Props.C68_reader",
    "Hwp.Props.C68_content",
    "Hwp.Props.C68_fields",
    "Hwp.Props.C68_value",
    "Hwp.Props.C68_payload",
    "Hwp.Props.C68_conditions",
    "Hwp.Props.C68_references",
    "Hwp.Props.C68_control_id",
    "Hwp.Props.C68_unknown_tag"
   ],
   "note": "Proved for all declared classes. The reader of the code (event pipeline, Model/Bintype) is the unique one satisfying ReadsDecls (C68_reader)."
  },
  {
   "property": "C69",
   "status": "partial",
   "theorems": [
    "Hwp.Props.C69_write_read",
    "Hwp.Props.C69_payload_partial",
    "Hwp.Props.C69_content_of_bytes",
    "Hwp.Props.C69_payload_determined",
    "Hwp.Props.C69_cut_off_string",
    "Hwp.Props.C69_fixed_models"
   ],
   "note": "C69_payload_partial needs unparsed bytes or a type without strings or HexBytes at the end (63 of 109 types are such), because a string cut off is accepted: C69_cut_off_string. The other direction (C69_write_read, C69_content_of_bytes) is proved for all."
  },
  {
   "property": "C70",
   "status": "partial",
   "theorems": [
    "Hwp.Props.C70_errors_partial",
    "Hwp.Props.C70_not_only_parse_errors",
    "Hwp.Props.C70_short_payload"
   ],
   "note": "Fails: C70_not_only_parse_errors shows KeyError and TypeError. C70_errors_partial bounds the exceptions to ParseError, KeyError and, inside ParaCharShape/ParaLineSeg records, TypeError."
  },
  {
   "property": "C71",
   "status": "proved",
   "theorems": [
    "Hwp.Props.C71_element_of_record"
   ],
   "note": "Proved for all record types but ParaCharShape, ParaLineSeg and ParaRangeTag, which never reach the converter (C66)."
  },
  {
   "property": "C72",
   "status": "proved",
   "theorems": [
    "Hwp.Props.C72_field_at",
    "Hwp.Props.C72_size",
    "Hwp.Props.C72_enough",
    "Hwp.Props.C72_table_complete",
    "Hwp.Props.C72_filled"
   ],
   "note": "Table of offsets for all record types; fields after a member of variable size are covered by C68 and C69 only."
  },
  {
   "property": "C73",
   "status": "proved",
   "theorems": [
    "Hwp.Props.C73_tree",
    "Hwp.Props.C73_document"
   ],
   "note": "Proved for proper documents (ProperDocument, Spec/Document.lean). The attributes of the elements the passes make are given by concItem of the model."
  },
  {
   "property": "C74",
   "status": "partial",
   "theorems": [
    "Hwp.Props.C74_well_formed",
    "Hwp.Props.C74_parses_back_partial"
   ],
   "note": "C74_parses_back_partial needs writable values and text without carriage returns (see C28). The encoding to UTF-8 is not modelled here."
  },
  {
   "property": "C75",
   "status": "proved",
   "theorems": [
    "Hwp.Props.C75_ids"
   ],
   "note": ""
  },
  {
   "property": "C76",
   "status": "proved",
   "theorems": [
    "Hwp.Props.C76_embedded",
    "Hwp.Props.C76_missing_stream"
   ],
   "note": "Proved for proper documents; C76_missing_stream for the failing case."
  },
  {
   "property": "C77",
   "status": "proved",
   "theorems": [
    "Hwp.Props.C77_same_properties",
    "Hwp.Props.C77_value_at_offset",
    "Hwp.Props.C77_events"
   ],
   "note": "The text of a FILETIME (a datetime) is a parameter."
  },
  {
   "property": "C78",
   "status": "proved",
   "theorems": [
    "Hwp.Props.C78_complete",
    "Hwp.Props.C78_unreadable"
   ],
   "note": ""
  },
  {
   "property": "C79",
   "status": "partial",
   "theorems": [
    "Hwp.Props.C79_cut_unnoticed",
    "Hwp.Props.C79_accepted_partial",
    "Hwp.Props.C79_whole_read",
    "Hwp.Props.C79_sizes_tell",
    "Hwp.Props.C79_never_longer",
    "Hwp.Props.C79_trailing_reported"
   ],
   "note": "False as stated; C79_accepted_partial says exactly which streams are accepted, C79_sizes_tell how to notice most cuts."
  },
  {
   "property": "C80",
   "status": "proved",
   "theorems": [
    "Hwp.Props.C80_members",
    "Hwp.Props.C80_no_class_missing",
    "Hwp.Props.C80_tags",
    "Hwp.Props.C80_tag_class",
    "Hwp.Props.C80_controls",
    "Hwp.Props.C80_extensions",
    "Hwp.Props.C80_base_classes"
   ],
   "note": ""
  },
  {
   "property": "C81",
   "status": "proved",
   "theorems": [
    "Hwp.Props.C81_integers",
    "Hwp.Props.C81_range",
    "Hwp.Props.C81_bad_range",
    "Hwp.Props.C81_all",
    "Hwp.Props.C81_treegroup",
    "Hwp.Props.C81_raw",
    "Hwp.Props.C81_raw_parts",
    "Hwp.Props.C81_raw_is_stream",
    "Hwp.Props.C81_raw_copy",
    "Hwp.Props.C81_raw_ranges_join",
    "Hwp.Props.C81_tag_names",
    "Hwp.Props.C81_tag_names_differ",
    "Hwp.Props.C81_listing",
    "Hwp.Props.C81_listing_lossless"
   ],
   "note": ""
  },
  {
   "property": "C82",
   "status": "partial",
   "theorems": [
    "Hwp.Props.C82_array_partial",
    "Hwp.Props.C82_empty_not_json",
    "Hwp.Props.C82_unfinished",
    "Hwp.Props.C82_lossless",
    "Hwp.Props.C82_ascii"
   ],
   "note": "False for the empty selection (C82_empty_not_json); C82_array_partial is the claim for all others, C82_unfinished the case of an exception."
  },
  {
   "property": "C83",
   "status": "partial",
   "theorems": [
    "Hwp.Props.C83_ascii",
    "Hwp.Props.C83_not_finite",
    "Hwp.Props.C83_array_partial",
    "Hwp.Props.C83_never_unwritable",
    "Hwp.Props.C83_unfinished",
    "Hwp.Props.C83_empty_not_json",
    "Hwp.Props.C83_object_record",
    "Hwp.Props.C83_seqno",
    "Hwp.Props.C83_treegroup",
    "Hwp.Props.C83_all",
    "Hwp.Props.C83_listing",
    "Hwp.Props.C83_not_finite_not_json"
   ],
   "note": "Missing from C83_array_partial: empty selections (output is not JSON, C83_empty_not_json) and numbers that are not finite (C83_not_finite_not_json). Assumes that float.__repr__ of a finite number is a JSON number. --format is C105; --events is not modelled."
  },
  {
   "property": "C84",
   "status": "partial",
   "theorems": [
    "Hwp.Props.C84_ls",
    "Hwp.Props.C84_ls_vstreams_partial",
    "Hwp.Props.C84_line",
    "Hwp.Props.C84_cat",
    "Hwp.Props.C84_cat_vstreams_partial",
    "Hwp.Props.C84_real_first",
    "Hwp.Props.C84_same_name"
   ],
   "note": "Missing from the _partial theorems: trees in which a name with an extension is the name of another item (C84_same_name). The contents of virtual streams are a parameter; those of .records, .models and .xml are C82, C83 and C75-C78."
  },
  {
   "property": "C85",
   "status": "partial",
   "theorems": [
    "Hwp.Props.C85_found_partial",
    "Hwp.Props.C85_sound",
    "Hwp.Props.C85_parse_error",
    "Hwp.Props.C85_other_error",
    "Hwp.Props.C85_tag_number",
    "Hwp.Props.C85_unknown_tag_number",
    "Hwp.Props.C85_incomplete",
    "Hwp.Props.C85_view_text",
    "Hwp.Props.C85_line"
   ],
   "note": "Violated in three respects, see C85_unknown_tag_number, C85_other_error and C85_view_text; TagKnown is the hypothesis that leaves the first one out. --format is C105; --dump and --from-stdin are not modelled. Opening files is a parameter (C40-C47 model it)."
  },
  {
   "property": "C86",
   "status": "partial",
   "theorems": [
    "Hwp.Props.C86_utf8",
    "Hwp.Props.C86_encodable",
    "Hwp.Props.C86_events",
    "Hwp.Props.C86_document_partial",
    "Hwp.Props.C86_complete_or_exception",
    "Hwp.Props.C86_open",
    "Hwp.Props.C86_surrogate"
   ],
   "note": "Proved: encoding is exactly RFC 3629, events and proper documents are read back from the bytes, completeness or exception. Violated for surrogate characters of bullets (C86_surrogate). Partial as C74: values with characters XML does not allow."
  },
  {
   "property": "C87",
   "status": "partial",
   "theorems": [
    "Hwp.Props.C87_package_partial",
    "Hwp.Props.C87_listed_once_partial",
    "Hwp.Props.C87_mimetype_last",
    "Hwp.Props.C87_control_name",
    "Hwp.Props.C87_substorage",
    "Hwp.Props.C87_unreadable",
    "Hwp.Props.C87_not_a_document"
   ],
   "note": "Proved for names without characters XML does not allow, given the results of the transformation. Violated: mimetype last, control characters in names, storages in BinData, packages left behind with exit status 0 (C87_mimetype_last, C87_control_name, C87_substorage, C87_unreadable). The zip format itself is not modelled."
  },
  {
   "property": "C88",
   "status": "partial",
   "theorems": [
    "Hwp.Props.C88_command_partial",
    "Hwp.Props.C88_only_below_partial",
    "Hwp.Props.C88_parent_directory",
    "Hwp.Props.C88_parent_directory_ole"
   ],
   "note": "Proved for trees without the names '.' and '..'; violated with a storage named '..' (C88_parent_directory). Symbolic links and names with '/' are not modelled."
  },
  {
   "property": "C89",
   "status": "partial",
   "theorems": [
    "Hwp.Props.C89_directory_partial",
    "Hwp.Props.C89_only_below_partial",
    "Hwp.Props.C89_not_a_document",
    "Hwp.Props.C89_file_kept",
    "Hwp.Props.C89_former_contents_lost",
    "Hwp.Props.C89_input_deleted",
    "Hwp.Props.C89_current_directory"
   ],
   "note": "Proved for destinations of plain names and embedded items that can be unpacked; violated when reading fails or the document is inside the destination (C89_former_contents_lost, C89_input_deleted, C89_current_directory). Symbolic links are not modelled."
  },
  {
   "property": "C90",
   "status": "proved",
   "theorems": [
    "Hwp.Props.C90_default_destination",
    "Hwp.Props.C90_one_segment",
    "Hwp.Props.C90_odt_destination_is_input",
    "Hwp.Props.C90_input_overwritten"
   ],
   "note": "Proved; the last sentence is violated for documents named *.odt in the current directory, which are characterised exactly (C90_odt_destination_is_input, C90_input_overwritten)."
  },
  {
   "property": "C91",
   "status": "partial",
   "theorems": [
    "Hwp.Props.C91_file",
    "Hwp.Props.C91_not_a_document",
    "Hwp.Props.C91_status_partial",
    "Hwp.Props.C91_parse_error"
   ],
   "note": "Proved but for ParseError, where it is violated (C91_parse_error)."
  },
  {
   "property": "C92",
   "status": "partial",
   "theorems": [
    "Hwp.Props.C92_text_partial",
    "Hwp.Props.C92_order",
    "Hwp.Props.C92_line",
    "Hwp.Props.C92_lost",
    "Hwp.Props.C92_not_parsed",
    "Hwp.Props.C92_control_character"
   ],
   "note": "Proved from the bytes of the streams to the bytes printed, with a parser of XML and the templates of plaintext.xsl (C92_text_partial); partial: values XML does not allow are excluded as in C74 (with them nothing at all is printed, C92_control_character), and the code does not print the text of tables and drawings, nor tabs (C92_lost)."
  },
  {
   "property": "C93",
   "status": "partial",
   "theorems": [
    "Hwp.Props.C93_html_partial",
    "Hwp.Props.C93_title",
    "Hwp.Props.C93_lost"
   ],
   "note": "Proved from the bytes of the streams, through the XML file and a parser, to the text of the page (C93_html_partial): what is printed and what is out of view are together all text of the section, each character as often, in order if no table or drawing floats; partial: fields, notes and others are out of view, headers are repeated with each section (C93_lost), the title is always empty (C93_title); values XML does not allow are excluded as in C74. Elements and attributes of the page are not modelled."
  },
  {
   "property": "C94",
   "status": "partial",
   "theorems": [
    "Hwp.Props.C94_odt_partial",
    "Hwp.Props.C94_lost"
   ],
   "note": "As C93 for content.xml (C94_odt_partial); partial: fields, headers, footers and captions of tables are out of view (C94_lost); styles, elements and attributes are not modelled."
  },
  {
   "property": "C95",
   "status": "partial",
   "theorems": [
    "Hwp.Props.C95_time_partial",
    "Hwp.Props.C95_whole_seconds",
    "Hwp.Props.C95_range",
    "Hwp.Props.C95_readable",
    "Hwp.Props.C95_micros_injective",
    "Hwp.Props.C95_inexact"
   ],
   "note": "Proved for all 64 bit values: the text is a valid date of the Gregorian calendar (stated by leap years and lengths of months, apart from the ordinals of the program) and a time of day, at most 16 microseconds off, one microsecond before 2171, exact for whole seconds; partial because the code divides in floating point numbers and is one microsecond off for some times of today (C95_inexact). The rounding of IEEE doubles is modelled."
  },
  {
   "property": "C96",
   "status": "proved",
   "theorems": [
    "Hwp.Props.C96_header",
    "Hwp.Props.C96_version",
    "Hwp.Props.C96_lines_determine",
    "Hwp.Props.C96_not_a_document"
   ],
   "note": "Proved from the bytes of the stream FileHeader to the lines; the lines determine the twelve flags. Arguments of the command line and logging are not modelled."
  },
  {
   "property": "C97",
   "status": "partial",
   "theorems": [
    "Hwp.Props.C97_summary_partial",
    "Hwp.Props.C97_stops",
    "Hwp.Props.C97_no_summary",
    "Hwp.Props.C97_missing_property",
    "Hwp.Props.C97_ambiguous",
    "Hwp.Props.C97_text"
   ],
   "note": "Proved from the bytes of the stream to the printed lines when all thirteen properties are there; partial because the code stops at the first missing property (C97_missing_property), because a line feed in a value makes the output ambiguous (C97_ambiguous), and because times are up to 16 microseconds off (C95)."
  },
  {
   "property": "C98",
   "status": "partial",
   "theorems": [
    "Hwp.Props.C98_only_contents",
    "Hwp.Props.C98_short_streams",
    "Hwp.Props.C98_contents_partial",
    "Hwp.Props.C98_truncated_silently",
    "Hwp.Props.C98_bytes_after_the_end",
    "Hwp.Props.C98_early_end",
    "Hwp.Props.C98_digest_and_key",
    "Hwp.Props.C98_no_head",
    "Hwp.Props.C98_pipeline"
   ],
   "note": "Proved for any inflate whose output depends on the bytes fed and grows with them: nothing else is printed, everything is printed for streams up to 8196 bytes; partial because the code stops at a piece of 8196 bytes that adds no contents (C98_early_end, concrete stream) and fails for bytes in a piece after the end (C98_bytes_after_the_end). sha1, key and the pipeline of the documentation are proved with C43."
  },
  {
   "property": "C99",
   "status": "partial",
   "theorems": [
    "Hwp.Props.C99_preview",
    "Hwp.Props.C99_every_text",
    "Hwp.Props.C99_utf8_partial",
    "Hwp.Props.C99_incomplete_end"
   ],
   "note": "Proved for all streams that are UTF-16; partial because for a stream that ends within a character PrvText.utf8 silently drops up to three bytes while the other form fails (C99_incomplete_end)."
  },
  {
   "property": "C100",
   "status": "partial",
   "theorems": [
    "Hwp.Props.C100_html_partial",
    "Hwp.Props.C100_odt_partial",
    "Hwp.Props.C100_html_file_partial",
    "Hwp.Props.C100_odt_file_partial",
    "Hwp.Props.C100_pictures_lost"
   ],
   "note": "Proved from the bytes of the records to the sources of the images (C100_html_partial, C100_odt_partial): pictures shown and pictures out of view are together all picture records of the section, each as often; an image with number k has the source bindata/NAME with NAME the stream of the k-th BinData record, and the file of this name has the contents of the stream (C100_html_file_partial, C100_odt_file_partial). Partial: pictures of footnotes are not in the HTML, those of headers not in the ODT (C100_pictures_lost); BinData records with records below them are excluded for HTML; data in the XML (--document, --embed-image) only by example; what is missing for C87, C89, C93, C94."
  },
  {
   "property": "C101",
   "status": "partial",
   "theorems": [
    "Hwp.Props.C101_color_partial",
    "Hwp.Props.C101_bold_partial",
    "Hwp.Props.C101_italic_partial",
    "Hwp.Props.C101_font_partial",
    "Hwp.Props.C101_not_overridden",
    "Hwp.Props.C101_style_lost"
   ],
   "note": "Color, weight, slant and font of every run, for documents with one table of ids and styles whose names are distinct CSS identifiers; not bold/not italic only if no style around is. Violated otherwise, with witnesses from records: C101_not_overridden (a run that is not bold is shown bold), C101_style_lost (a style without English name loses its formatting). Trusted: Spec/Css as a description of CSS."
  },
  {
   "property": "C102",
   "status": "partial",
   "theorems": [
    "Hwp.Props.C102_html_partial",
    "Hwp.Props.C102_odt_partial",
    "Hwp.Props.C102_spans_shift"
   ],
   "note": "From the bytes of the records to the rows and spans in the pages, for all documents (C102_html_partial, C102_odt_partial): tables in the page and tables out of view are together the tables of the records; a browser shows every cell of a table whose cells fill a grid in reading order where its record declares it. Violated for the text document: with spans the cells are put into wrong columns (C102_spans_shift); proved there for tables without spans only. Partial also: tables in notes (HTML) and headers (ODT) are out of view; rows without cells; spans HTML cuts (over 65534 rows, 1000 columns). Trusted: Spec/Tables as a description of the table models of HTML and OpenDocument."
  },
  {
   "property": "C103",
   "status": "partial",
   "theorems": [
    "Hwp.Props.C103_lines_partial",
    "Hwp.Props.C103_bold_partial",
    "Hwp.Props.C103_italic_partial",
    "Hwp.Props.C103_asian_font_partial",
    "Hwp.Props.C103_runs",
    "Hwp.Props.C103_no_color",
    "Hwp.Props.C103_western_font",
    "Hwp.Props.C103_after_tab",
    "Hwp.Props.C103_not_overridden",
    "Hwp.Props.C103_same_name"
   ],
   "note": "Partial because the code violates it in general: text after a tab, a control character, a drawing or a note in its line has the style of another text or none (C103_after_tab); the color of text is lost in all documents (C103_no_color); the western font is one of the Korean faces (C103_western_font); bold and italic are not overridden (C103_not_overridden); different styles get one name (C103_same_name). Proved for all documents with one table of ids and distinct style names: lines (exact), bold, italic and the Asian font, for runs with only text before them in their line or with the character shape of the style of their paragraph. Sizes are not modelled."
  },
  {
   "property": "C104",
   "status": "partial",
   "theorems": [
    "Hwp.Props.C104_renamed",
    "Hwp.Props.C104_same_partial",
    "Hwp.Props.C104_leaves",
    "Hwp.Props.C104_control_names",
    "Hwp.Props.C104_summary",
    "Hwp.Props.C104_listing",
    "Hwp.Props.C104_below_file",
    "Hwp.Props.C104_parent",
    "Hwp.Props.C104_absolute"
   ],
   "note": "Partial: names with control character 5 are renamed by unpack and not found again (C104_control_names); names such as .. are no names of items. C104_renamed covers all storages that can be unpacked, under their file names."
  },
  {
   "property": "C105",
   "status": "partial",
   "theorems": [
    "Hwp.Props.C105_escapes",
    "Hwp.Props.C105_models_escapes",
    "Hwp.Props.C105_escapes_example",
    "Hwp.Props.C105_inverse",
    "Hwp.Props.C105_escape_injective",
    "Hwp.Props.C105_ascii",
    "Hwp.Props.C105_other_characters",
    "Hwp.Props.C105_format",
    "Hwp.Props.C105_missing",
    "Hwp.Props.C105_models",
    "Hwp.Props.C105_models_partial",
    "Hwp.Props.C105_members",
    "Hwp.Props.C105_find",
    "Hwp.Props.C105_find_default",
    "Hwp.Props.C105_whole"
   ],
   "note": "Partial: formats with characters outside of ASCII are garbled by unicode_unescape (C105_other_characters); C105_models covers all texts in escaped form. Conversions other than s, d, i and u are parameters."
  },
  {
   "property": "C106",
   "status": "partial",
   "theorems": [
    "Hwp.Props.C106_paragraphs_numbered",
    "Hwp.Props.C106_html_color_partial",
    "Hwp.Props.C106_html_bold_partial",
    "Hwp.Props.C106_html_italic_partial",
    "Hwp.Props.C106_html_font_partial",
    "Hwp.Props.C106_odt_lines_partial",
    "Hwp.Props.C106_odt_bold_partial",
    "Hwp.Props.C106_odt_italic_partial",
    "Hwp.Props.C106_odt_asian_font_partial"
   ],
   "note": "End to end from records for documents whose pictures are stored separately (the default). Partial as C101 and C103 are: styles without proper names, runs that are not bold in paragraphs with a bold style, text after controls in ODT, western fonts and colors in ODT are excluded (each has a counterexample under C101 or C103). The numbering of paragraphs is proved in full."
  },
  {
   "property": "C107",
   "status": "partial",
   "theorems": [
    "Hwp.Props.C107_html_partial",
    "Hwp.Props.C107_odt_partial",
    "Hwp.Props.C107_html_records_partial",
    "Hwp.Props.C107_odt_records_partial",
    "Hwp.Props.C107_char_style",
    "Hwp.Props.C107_style_lost"
   ],
   "note": "Partial because the code violates it in general: in HTML the alignment is lost for paragraphs with the shape of their style if the style has no proper English name (C107_style_lost) or is one of characters (C107_char_style); in ODT different styles may get one name (C103_same_name). Proved for all other documents, from the XML file and from the records."
  },
  {
   "property": "C108",
   "status": "partial",
   "theorems": [
    "Hwp.Props.C108_cm",
    "Hwp.Props.C108_mm_partial",
    "Hwp.Props.C108_mm_near",
    "Hwp.Props.C108_mm_far",
    "Hwp.Props.C108_html_partial",
    "Hwp.Props.C108_odt_layout",
    "Hwp.Props.C108_odt_pages_partial",
    "Hwp.Props.C108_master_lost",
    "Hwp.Props.C108_by_shape",
    "Hwp.Props.C108_turned_lost",
    "Hwp.Props.C108_sections",
    "Hwp.Props.C108_html_records_partial",
    "Hwp.Props.C108_odt_records"
   ],
   "note": "Partial because the code violates it in general: in ODT the master page of a section is lost if its first paragraph needs no style of its own (C108_master_lost, C108_turned_lost), and millimetres are not the closest ones for lengths of more than 42 m (C108_mm_far; C108_mm_near for all). Proved: lengths in cm for all values, page layouts of ODT, pages of sections whose first paragraph has a style of its own, width and margins in HTML; C108_sections, C108_odt_records and C108_html_records_partial state them for the records of a document. The height of the paper is not written in HTML."
  },
  {
   "property": "C109",
   "status": "partial",
   "theorems": [
    "Hwp.Props.C109_events",
    "Hwp.Props.C109_items_tile",
    "Hwp.Props.C109_content_reported",
    "Hwp.Props.C109_error_offset_partial",
    "Hwp.Props.C109_other_errors",
    "Hwp.Props.C109_flags_without_offset",
    "Hwp.Props.C109_names",
    "Hwp.Props.C109_error_item_partial",
    "Hwp.Props.C109_names_example"
   ],
   "note": "Tiling, nesting, reporting and the names and types of the events proved for every record of the declared classes and every parent, whatever the outcome. Partial: the offset of a failure is reported for everything but flags, where the code raises KeyError without an offset (C109_flags_without_offset). The text of the printed lines (types, repr of values) is not modelled."
  },
  {
   "property": "C110",
   "status": "partial",
   "theorems": [
    "Hwp.Props.C110_html_partial",
    "Hwp.Props.C110_hanging_lost",
    "Hwp.Props.C110_odt_partial",
    "Hwp.Props.C110_html_records_partial",
    "Hwp.Props.C110_odt_records_partial",
    "Hwp.Props.C110_hanging_example"
   ],
   "note": "Partial because the code violates it in general: in HTML the padding for hanging lines of the style is not taken back by a shape without hanging lines (C110_hanging_lost, proved for all such paragraphs), and as for C107. Proved for all other documents, from the XML file and from the records; in ODT for all indents. The rules in the head of the page (for the parts of the page) are not among the rules considered."
  },
  {
   "property": "C111",
   "status": "partial",
   "theorems": [
    "Hwp.Props.C111_html_partial",
    "Hwp.Props.C111_html_lost",
    "Hwp.Props.C111_html_kept",
    "Hwp.Props.C111_odt_partial",
    "Hwp.Props.C111_odt_kept",
    "Hwp.Props.C111_html_records_partial",
    "Hwp.Props.C111_odt_records_partial",
    "Hwp.Props.C111_html_example",
    "Hwp.Props.C111_odt_example"
   ],
   "note": "Partial because the code violates it: HTML has only distances in percent, and the ones of the style hold for paragraphs with other kinds (C111_html_lost, C111_html_kept, proved for all such paragraphs); in ODT the height of the style holds for paragraphs with least distances or spaces between lines (C111_odt_kept). Proved: percent in HTML, percent and fixed in ODT, from the XML file and from the records."
  },
  {
   "property": "C112",
   "status": "partial",
   "theorems": [
    "Hwp.Props.C112_html_partial",
    "Hwp.Props.C112_odt_partial",
    "Hwp.Props.C112_html_records_partial",
    "Hwp.Props.C112_html_negative",
    "Hwp.Props.C112_odt_records_partial",
    "Hwp.Props.C112_example"
   ],
   "note": "The percents for the languages are bytes up to 250, but are read as numbers with a sign: letters of 128 percent or more get a negative size (C112_html_negative, for all such runs; C112_example). Otherwise sizes are exact. As for C101 and C103, names of styles must be proper."
  },
  {
   "property": "C113",
   "status": "partial",
   "theorems": [
    "Hwp.Props.C113_names",
    "Hwp.Props.C113_one_path",
    "Hwp.Props.C113_docinfo",
    "Hwp.Props.C113_section",
    "Hwp.Props.C113_path",
    "Hwp.Props.C113_text_partial",
    "Hwp.Props.C113_distribution",
    "Hwp.Props.C113_no_body",
    "Hwp.Props.C113_records_section",
    "Hwp.Props.C113_records_docinfo",
    "Hwp.Props.C113_records_only",
    "Hwp.Props.C113_raw_copy",
    "Hwp.Props.C113_distribution_example",
    "Hwp.Props.C113_example",
    "Hwp.Props.C113_records_example"
   ],
   "note": "In distribution documents bodytext/N looks into BodyText, which is not the text that the conversions use (C113_distribution, for all such documents; C113_distribution_example). Otherwise proved for all names and documents; of the spellings of numbers only ASCII ones are modelled."
  },
  {
   "property": "C114",
   "status": "partial",
   "theorems": [
    "Hwp.Props.C114_line_partial",
    "Hwp.Props.C114_no_line_partial",
    "Hwp.Props.C114_records_partial",
    "Hwp.Props.C114_inline_table",
    "Hwp.Props.C114_not_overridden"
   ],
   "note": "Proved for every run of text of every document with proper names of styles, by the elements and by the records: its own line with color and style, and which lines come from around. Partial: a run without a line in a paragraph whose style has one shows it (C114_not_overridden), and the text of an inline table has the line of the style of the paragraph around (C114_inline_table). The vendor-prefixed properties are in the model but not in the browser of the specification."
  }
 ]
}