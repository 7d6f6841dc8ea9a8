{
 "claims": [
  {
   "property": "C01",
   "status": "proved",
   "theorems": [
    "Verif.c01_compare_opposite",
    "Verif.c01_compare_range",
    "Verif.c01_compare_zero",
    "Verif.c01_less_lexicographic",
    "Verif.c01_compare_trans",
    "Verif.c01_less_strict_order",
    "Verif.c01_equals_iff"
   ],
   "note": ""
  },
  {
   "property": "C02",
   "status": "partial",
   "theorems": [
    "Verif.c02_parse_spells_iff_partial",
    "Verif.c02_no_empty_word_partial",
    "Verif.c02_parse_spells_refuted"
   ],
   "note": "False for some identifiers: proved exactly when it holds for alphanumeric ones."
  },
  {
   "property": "C03",
   "status": "proved",
   "theorems": [
    "Verif.c03_parse_camel",
    "Verif.c03_camel_injective",
    "Verif.c03_camel_injective_all_refuted"
   ],
   "note": ""
  },
  {
   "property": "C04",
   "status": "proved",
   "theorems": [
    "Verif.c04_join_parse",
    "Verif.c04_toText_parse",
    "Verif.c04_words",
    "Verif.c04_parse_toText",
    "Verif.c04_joined"
   ],
   "note": ""
  },
  {
   "property": "C05",
   "status": "proved",
   "theorems": [
    "Verif.c05_listing_sorted",
    "Verif.c05_listing_unique",
    "Verif.c05_reachable",
    "Verif.c05_insertion_order",
    "Verif.c05_members_sorted",
    "Verif.c05_members_order",
    "Verif.c05_nil_ignored"
   ],
   "note": ""
  },
  {
   "property": "C06",
   "status": "partial",
   "theorems": [
    "Verif.c06_listing_panics",
    "Verif.c06_listing_refuted",
    "Verif.c06_listing_partial"
   ],
   "note": "False: listing two or more errors panics; proved for every map with at least two errors, and the listing is proved for at most one error."
  },
  {
   "property": "C07",
   "status": "proved",
   "theorems": [
    "Verif.c07_find_last",
    "Verif.c07_find_iff",
    "Verif.c07_find_other",
    "Verif.c07_find_member",
    "Verif.c07_builtin_types"
   ],
   "note": ""
  },
  {
   "property": "C08",
   "status": "proved",
   "theorems": [
    "Verif.c08_paths_are_chains",
    "Verif.c08_loop_diverges"
   ],
   "note": ""
  },
  {
   "property": "C09",
   "status": "proved",
   "theorems": [
    "Verif.c09_loops_reported_iff",
    "Verif.c09_unreachable_not_reported"
   ],
   "note": ""
  },
  {
   "property": "C10",
   "status": "proved",
   "theorems": [
    "Verif.c10_accepted_finite",
    "Verif.c10_paths_deterministic"
   ],
   "note": ""
  },
  {
   "property": "C11",
   "status": "proved",
   "theorems": [
    "Verif.c11_add_accepted_iff"
   ],
   "note": ""
  },
  {
   "property": "C12",
   "status": "proved",
   "theorems": [
    "Verif.c12_delete_accepted_iff"
   ],
   "note": ""
  },
  {
   "property": "C13",
   "status": "proved",
   "theorems": [
    "Verif.c13_get_accepted_iff"
   ],
   "note": ""
  },
  {
   "property": "C14",
   "status": "proved",
   "theorems": [
    "Verif.c14_list_accepted_iff",
    "Verif.c14_absent_paging_warns"
   ],
   "note": ""
  },
  {
   "property": "C15",
   "status": "proved",
   "theorems": [
    "Verif.c15_search_accepted_iff",
    "Verif.c15_post_accepted_iff"
   ],
   "note": ""
  },
  {
   "property": "C16",
   "status": "proved",
   "theorems": [
    "Verif.c16_update_accepted_iff",
    "Verif.c16_action_accepted_iff"
   ],
   "note": ""
  },
  {
   "property": "C17",
   "status": "proved",
   "theorems": [
    "Verif.c17_returned_iff",
    "Verif.c17_no_reporter",
    "Verif.c17_nothing_ignored",
    "Verif.c17_everything_checked",
    "Verif.c17_messages",
    "Verif.c17_files",
    "Verif.c17_write_results"
   ],
   "note": ""
  },
  {
   "property": "C18",
   "status": "partial",
   "theorems": [
    "Verif.c18_undefined_types_partial",
    "Verif.c18_undefined_resources",
    "Verif.c18_used_is_declared",
    "Verif.c18_pointers",
    "Verif.c18_accepted_iff_partial",
    "Verif.c18_versions_refuted",
    "Verif.c18_single_version"
   ],
   "note": "Proved for one version (c18_single_version): after a successful read every name used is declared, built in, or the computed name of a list or map that is written; the converse needs that computed names don't clash. False for several versions (c18_versions_refuted)."
  },
  {
   "property": "C19",
   "status": "partial",
   "theorems": [
    "Verif.c19_same_content_partial",
    "Verif.c19_same_verdict_partial",
    "Verif.c19_declared_types_partial",
    "Verif.c19_declared_resources",
    "Verif.c19_declared_errors",
    "Verif.c19_refuted"
   ],
   "note": "Proved when the computed names of lists and maps don't clash with each other or with declared names; false otherwise (c19_refuted)."
  },
  {
   "property": "C20",
   "status": "partial",
   "theorems": [
    "Verif.c20_duplicates_reported",
    "Verif.c20_types_count_partial",
    "Verif.c20_resources_count",
    "Verif.c20_errors_count",
    "Verif.c20_refuted",
    "Verif.c20_versions_refuted"
   ],
   "note": "Proved for one version that every duplicate is reported and, without clashes, how many times. False for several versions (c20_versions_refuted) and exact counts are false with clashes (c20_refuted)."
  },
  {
   "property": "C21",
   "status": "proved",
   "theorems": [
    "Verif.c21_elements",
    "Verif.c21_completion",
    "Verif.c21_names",
    "Verif.c21_every_type_has_list",
    "Verif.c21_model"
   ],
   "note": ""
  },
  {
   "property": "C22",
   "status": "partial",
   "theorems": [
    "Verif.c22_lexer",
    "Verif.c22_block",
    "Verif.c22_block_exists",
    "Verif.c22_text_iff",
    "Verif.c22_panic_iff",
    "Verif.c22_errors_iff",
    "Verif.c22_used_once",
    "Verif.c22_own_block",
    "Verif.c22_refuted",
    "Verif.c22_blank_refuted"
   ],
   "note": "The block, its text, errors and crashes are characterised for all layouts, and no comment is used twice; that each declaration gets its own block is proved when the lines where declarations start have no comments, and is false otherwise (c22_refuted); blocks that start with an empty comment crash (c22_blank_refuted)."
  },
  {
   "property": "C23",
   "status": "proved",
   "theorems": [
    "Verif.c23_directions",
    "Verif.c23_parameters",
    "Verif.c23_request_response"
   ],
   "note": ""
  },
  {
   "property": "C24",
   "status": "partial",
   "theorems": [
    "Verif.c24_set_variable_refuted",
    "Verif.c24_locators",
    "Verif.c24_reader"
   ],
   "note": "Proved for the reader and for the flag itself; false for SetVariable, which ignores its argument (refuted)."
  },
  {
   "property": "C25",
   "status": "proved",
   "theorems": [
    "Verif.c25_action_iff",
    "Verif.c25_query_iff",
    "Verif.c25_body_iff",
    "Verif.c25_split",
    "Verif.c25_directions",
    "Verif.c25_items_iff",
    "Verif.c25_body_parameter_iff"
   ],
   "note": ""
  },
  {
   "property": "C26",
   "status": "proved",
   "theorems": [
    "Verif.c26_verb_and_status",
    "Verif.c26_docs_agree"
   ],
   "note": ""
  },
  {
   "property": "C27",
   "status": "partial",
   "theorems": [
    "Verif.c27_refuted",
    "Verif.c27_indistinguishable_iff_partial"
   ],
   "note": "False (c27_refuted); c27_indistinguishable_iff_partial says exactly which methods share verb and URL."
  },
  {
   "property": "C28",
   "status": "proved",
   "theorems": [
    "Verif.c28_annotation_wins",
    "Verif.c28_default_is_snake",
    "Verif.c28_standard_methods",
    "Verif.c28_not_a_string"
   ],
   "note": ""
  },
  {
   "property": "C29",
   "status": "partial",
   "theorems": [
    "Verif.c29_public",
    "Verif.c29_private",
    "Verif.c29_private_injective",
    "Verif.c29_annotation_refuted",
    "Verif.c29_annotation",
    "Verif.c29_file"
   ],
   "note": "Proved for the names calculator; false for names given with @go, which are used as they are."
  },
  {
   "property": "C30",
   "status": "proved",
   "theorems": [
    "Verif.c30_single_bit",
    "Verif.c30_distinct_bits"
   ],
   "note": ""
  },
  {
   "property": "C31",
   "status": "partial",
   "theorems": [
    "Verif.c31_bitmap_type_iff",
    "Verif.c31_mask_fits_partial",
    "Verif.c31_bit63_refuted"
   ],
   "note": "False for bit 63 (c31_bit63_refuted); proved for every other bit, and exactly which types are reported."
  },
  {
   "property": "C32",
   "status": "proved",
   "theorems": [
    "Verif.c32_line_comment",
    "Verif.c32_no_code"
   ],
   "note": ""
  },
  {
   "property": "C33",
   "status": "partial",
   "theorems": [
    "Verif.c33_only_blank_lines_partial",
    "Verif.c33_last_line_refuted",
    "Verif.c33_only_blank_lines",
    "Verif.c33_blank_line"
   ],
   "note": "False of a last line that isn't blank (c33_last_line_refuted); everything else proved."
  },
  {
   "property": "C34",
   "status": "proved",
   "theorems": [
    "Verif.c34_bytes",
    "Verif.c34_lines"
   ],
   "note": ""
  },
  {
   "property": "C35",
   "status": "partial",
   "theorems": [
    "Verif.c35_refuted",
    "Verif.c35_same_package_iff_partial",
    "Verif.c35_fixed_packages",
    "Verif.c35_service_package",
    "Verif.c35_imports",
    "Verif.c35_metrics_import_refuted"
   ],
   "note": "False (c35_refuted); proved exactly when packages are equal. The import of the metrics package is that of the helpers."
  },
  {
   "property": "C36",
   "status": "proved",
   "theorems": [
    "Verif.c36_well_formed",
    "Verif.c36_grammar"
   ],
   "note": ""
  },
  {
   "property": "C37",
   "status": "proved",
   "theorems": [
    "Verif.c37_object",
    "Verif.c37_names",
    "Verif.c37_list",
    "Verif.c37_link",
    "Verif.c37_map",
    "Verif.c37_scalar",
    "Verif.c37_types"
   ],
   "note": ""
  },
  {
   "property": "C38",
   "status": "proved",
   "theorems": [
    "Verif.c38_round_trip",
    "Verif.c38_marshal",
    "Verif.c38_proper",
    "Verif.c38_empty_key_refuted",
    "Verif.c38_fraction_refuted",
    "Verif.c38_link_refuted",
    "Verif.c38_nil_item_refuted"
   ],
   "note": ""
  },
  {
   "property": "C39",
   "status": "partial",
   "theorems": [
    "Verif.c39_order_partial",
    "Verif.c39_unknown_partial",
    "Verif.c39_last_wins_partial",
    "Verif.c39_map_partial",
    "Verif.c39_nested_partial",
    "Verif.c39_empty_name_refuted",
    "Verif.c39_kind_refuted"
   ],
   "note": "Proved for documents without members with empty names and without repeated kinds; those two cases are refuted: an empty name ends the object, and the last kind doesn't win."
  },
  {
   "property": "C40",
   "status": "proved",
   "theorems": [
    "Verif.c40_parse",
    "Verif.c40_unique",
    "Verif.c40_default",
    "Verif.c40_types"
   ],
   "note": ""
  },
  {
   "property": "C41",
   "status": "partial",
   "theorems": [
    "Verif.GoBuilder.c41_get",
    "Verif.GoBuilder.c41_header",
    "Verif.GoBuilder.c41_builds_iff",
    "Verif.GoBuilder.c41_build_unique",
    "Verif.GoBuilder.c41_success_refuted",
    "Verif.GoBuilder.c41_map_shared",
    "Verif.GoTypes.c41_getters"
   ],
   "note": "Complete for the values of getters, for all the histories without copies to the builder. Refuted: building panics for lists or maps with nil builders, and never ends for builders that contain themselves; building succeeds exactly if there are none."
  },
  {
   "property": "C42",
   "status": "partial",
   "theorems": [
    "Verif.GoBuilder.c42_copy",
    "Verif.GoBuilder.c42_total",
    "Verif.GoBuilder.c42_equal_partial",
    "Verif.GoBuilder.c42_then_set",
    "Verif.GoBuilder.c42_refuted",
    "Verif.GoBuilder.c42_copyList"
   ],
   "note": "The result of copying and building is given exactly, and it is equal to the object exactly if the object has no empty maps, no nil elements and no lists of links with flag, address or no slice. Refuted in general."
  },
  {
   "property": "C43",
   "status": "partial",
   "theorems": [
    "Verif.GoBuilder.c43_link_partial",
    "Verif.GoBuilder.c43_false_refuted"
   ],
   "note": "Refuted: calling Link with false makes the object a link. An object is a link exactly if Link has been called."
  },
  {
   "property": "C44",
   "status": "proved",
   "theorems": [
    "Verif.GoBuilder.c44_builder",
    "Verif.GoTypes.c44_empty",
    "Verif.GoTypes.c44_header",
    "Verif.GoTypes.c44_nil"
   ],
   "note": ""
  },
  {
   "property": "C45",
   "status": "proved",
   "theorems": [
    "Verif.GoBuilder.c45_builder",
    "Verif.GoTypes.c45_items",
    "Verif.GoTypes.c45_get",
    "Verif.GoTypes.c45_iterate",
    "Verif.GoTypes.c45_iterate_unique",
    "Verif.GoTypes.c45_header",
    "Verif.GoTypes.c45_metadata"
   ],
   "note": ""
  },
  {
   "property": "C46",
   "status": "proved",
   "theorems": [
    "Verif.GoClient.c46_client",
    "Verif.GoHelpers.c46_arguments",
    "Verif.GoHelpers.c46_result",
    "Verif.GoHelpers.c46_ends",
    "Verif.GoHelpers.c46_success",
    "Verif.GoHelpers.c46_stops",
    "Verif.GoHelpers.c46_deadline",
    "Verif.GoHelpers.c46_deadline_silent"
   ],
   "note": "For every schedule of responses and clock readings; running out of time after an unsatisfactory response reports no error, which is what the code does (c46_deadline_silent)."
  },
  {
   "property": "C47",
   "status": "partial",
   "theorems": [
    "Verif.GoClient.c47_request",
    "Verif.GoClient.c47_empty",
    "Verif.GoClient.c47_status_partial",
    "Verif.GoClient.c47_status_refuted",
    "Verif.GoClient.c47_content",
    "Verif.GoClient.c47_broken",
    "Verif.GoClient.c47_delete_refuted",
    "Verif.GoClient.c47_server_error",
    "Verif.GoClient.c47_object",
    "Verif.GoClient.c47_metadata",
    "Verif.GoClient.c47_metadata_empty_refuted",
    "Verif.GoClient.c47_getters",
    "Verif.GoClient.c47_zero"
   ],
   "note": "Complete for statuses lower than 400, and for 400 or more with content; refuted: statuses of 400 or more without content aren't reported, the metadata request reports responses without content as errors, and responses of delete methods with output parameters aren't read."
  },
  {
   "property": "C48",
   "status": "partial",
   "theorems": [
    "Verif.c48_path_partial",
    "Verif.c48_relative_partial",
    "Verif.c48_id",
    "Verif.c48_id_same",
    "Verif.c48_id_parent",
    "Verif.c48_id_refuted",
    "Verif.c48_distinct",
    "Verif.c48_template_partial",
    "Verif.c48_metadata",
    "Verif.c48_names"
   ],
   "note": "Holds for every chain of locators when the segments and the identifiers are plain; refuted for identifiers that are empty, '.', '..' or contain slashes, which give the path of another resource (c48_id_refuted). The model of path.Join and path.Clean works on the segments between slashes."
  },
  {
   "property": "C49",
   "status": "proved",
   "theorems": [
    "Verif.GoHelpers.c49_history",
    "Verif.GoHelpers.c49_again",
    "Verif.GoHelpers.c49_server"
   ],
   "note": "For every history of requests over a memory with shared maps and arrays. Texts of dates and floating point numbers are parameters. The HTTP transport isn't modelled: it may do anything to the memory it receives, but not to the memory of the requests."
  },
  {
   "property": "C50",
   "status": "proved",
   "theorems": [
    "Verif.GoHelpers.c50_segments",
    "Verif.GoHelpers.c50_slashes",
    "Verif.GoHelpers.c50_root"
   ],
   "note": "As an equivalence for every path; the root path has one empty segment (c50_root)."
  },
  {
   "property": "C51",
   "status": "partial",
   "theorems": [
    "Verif.GoError.c51_builder",
    "Verif.GoError.c51_copy",
    "Verif.GoError.c51_nil",
    "Verif.GoError.c51_write",
    "Verif.GoError.c51_read",
    "Verif.GoError.c51_round_trip",
    "Verif.GoError.c51_status",
    "Verif.GoError.c51_text_partial",
    "Verif.GoError.c51_text_mentions_partial",
    "Verif.GoError.c51_phrases",
    "Verif.GoError.c51_text_href_refuted",
    "Verif.GoError.c51_text_nil_refuted",
    "Verif.GoError.c51_write_nil_refuted",
    "Verif.GoError.c51_null_timestamp_refuted"
   ],
   "note": "Builder, getters, JSON written and read, round trip, status override and text proved for all errors; refuted: location and details aren't part of the text, nil errors and nil timestamps panic, null timestamps can't be read back."
  },
  {
   "property": "C52",
   "status": "partial",
   "theorems": [
    "Verif.GoError.c52_status_partial",
    "Verif.GoError.c52_range",
    "Verif.GoError.c52_informational_refuted",
    "Verif.GoError.c52_switching",
    "Verif.GoError.c52_panic_refuted",
    "Verif.GoError.c52_fixed"
   ],
   "note": "Proved for numeric identifiers from 200 to 999 and the fixed errors; refuted for informational codes and for identifiers that aren't numeric (answered with 200); identifiers out of range panic."
  },
  {
   "property": "C53",
   "status": "proved",
   "theorems": [
    "Verif.c53_buffer",
    "Verif.c53_members",
    "Verif.c53_write",
    "Verif.c53_unbalanced"
   ],
   "note": "For every sequence of calls to the buffer that is properly nested, at the level of JSON tokens; the text of the tokens and the indentation are the job of jsoniter, which isn't modelled."
  },
  {
   "property": "C54",
   "status": "proved",
   "theorems": [
    "Verif.c54_references",
    "Verif.c54_resolve",
    "Verif.c54_resolve_iff",
    "Verif.c54_foreign_refuted"
   ],
   "note": "For every version whose mentioned types with name belong to the version (c54_resolve), and exactly when the names mentioned are names of schemas (c54_resolve_iff); without the condition it is refuted (c54_foreign_refuted)."
  },
  {
   "property": "C55",
   "status": "partial",
   "theorems": [
    "Verif.c55_parameters_partial",
    "Verif.c55_operations",
    "Verif.c55_constants_refuted"
   ],
   "note": "Holds if the segments contain no slashes and the constant ones don't look like variables; refuted for constant segments in curly brackets (c55_constants_refuted). c55_operations shows that every method has its operation."
  },
  {
   "property": "C56",
   "status": "partial",
   "theorems": [
    "Verif.c56_unique_partial",
    "Verif.c56_root_refuted",
    "Verif.c56_verbs_refuted",
    "Verif.c56_schemas_refuted"
   ],
   "note": "The statement is false in general; c56_unique_partial gives the exact condition and the other theorems give the classes of versions whose documents repeat keys."
  },
  {
   "property": "C57",
   "status": "partial",
   "theorems": [
    "Verif.c57_first_sentence",
    "Verif.c57_no_dot",
    "Verif.c57_one_line",
    "Verif.c57_line_breaks_refuted",
    "Verif.c57_words_glued_refuted"
   ],
   "note": "False: line breaks stay when there is no dot and words are glued; the summary is characterised for every text."
  },
  {
   "property": "C58",
   "status": "partial",
   "theorems": [
    "Verif.c58_files",
    "Verif.c58_pages_differ",
    "Verif.c58_links_have_pages_partial",
    "Verif.c58_pages_iff",
    "Verif.c58_broken_link_refuted",
    "Verif.c58_overwritten_refuted",
    "Verif.c58_display"
   ],
   "note": "False: links of built-in types have no page and pages of services overwrite each other; pages and links are characterised."
  },
  {
   "property": "C59",
   "status": "proved",
   "theorems": [
    "Verif.c59_branch_iff",
    "Verif.c59_tree_iff",
    "Verif.c59_tree_root"
   ],
   "note": ""
  },
  {
   "property": "C60",
   "status": "partial",
   "theorems": [
    "Verif.c60_reference_partial",
    "Verif.c60_list_refuted",
    "Verif.c60_map_refuted"
   ],
   "note": "Proved when the computed names don't clash; false otherwise (c60_list_refuted, c60_map_refuted)."
  },
  {
   "property": "C61",
   "status": "partial",
   "theorems": [
    "Verif.c61_no_root_panics",
    "Verif.c61_checks_finish_refuted",
    "Verif.c61_no_target_panics",
    "Verif.c61_checks_finish_partial"
   ],
   "note": "False: a version without root, or a locator without target, crashes the reader; proved that checks finish for versions with a root and complete locators."
  },
  {
   "property": "C62",
   "status": "proved",
   "theorems": [
    "Verif.c62_version_accepted_iff",
    "Verif.c62_model_accepted_iff"
   ],
   "note": ""
  },
  {
   "property": "C63",
   "status": "partial",
   "theorems": [
    "Verif.c63_refuted",
    "Verif.c63_fields_partial",
    "Verif.c63_request_clash_iff_partial",
    "Verif.c63_members",
    "Verif.c63_getters_partial",
    "Verif.c63_message_names_refuted"
   ],
   "note": "False (c63_refuted); proved when fields of requests clash and that err, status, Error and Status never clash."
  },
  {
   "property": "C64",
   "status": "partial",
   "theorems": [
    "Verif.c64_package_name",
    "Verif.c64_leading_dash_refuted"
   ],
   "note": "False for a leading dash; proved for every other name."
  },
  {
   "property": "C66",
   "status": "proved",
   "theorems": [
    "Verif.GoJson.c66_add_request",
    "Verif.GoJson.c66_update_request",
    "Verif.GoJson.c66_search_request",
    "Verif.GoJson.c66_post_request",
    "Verif.GoJson.c66_no_write",
    "Verif.GoJson.c66_no_body",
    "Verif.GoJson.c66_action_request",
    "Verif.GoJson.c66_body_response",
    "Verif.GoJson.c66_post_response",
    "Verif.GoJson.c66_delete_response",
    "Verif.GoJson.c66_action_response",
    "Verif.GoJson.c66_page_response",
    "Verif.GoJson.c66_round_trip",
    "Verif.GoJson.c66_nil_body_refuted",
    "Verif.GoJson.c66_metadata",
    "Verif.GoJson.c66_metadata_round_trip"
   ],
   "note": "Field name clashes are the subject of C67; parameter names must be different, as otherwise the generated code doesn't compile. Sending a request without its body panics (c66_nil_body_refuted), which the property doesn't exclude."
  },
  {
   "property": "C67",
   "status": "partial",
   "theorems": [
    "Verif.GoJson.c67_fields_partial",
    "Verif.GoJson.c67_status_refuted"
   ],
   "note": "True exactly for parameters whose private name isn't err or status; refuted for those."
  },
  {
   "property": "C68",
   "status": "proved",
   "theorems": [
    "Verif.c68_entries_unique",
    "Verif.c68_document",
    "Verif.c68_tokens_determine",
    "Verif.c68_written_iff",
    "Verif.c68_errors",
    "Verif.c68_failed",
    "Verif.c68_types",
    "Verif.c68_segments"
   ],
   "note": "At the level of JSON tokens; the specification of the document is Spec/OpenApi.lean."
  },
  {
   "property": "C65",
   "status": "partial",
   "theorems": [
    "Verif.ClassRef.c65_ends",
    "Verif.ClassRef.c65_types",
    "Verif.ClassRef.c65_types_distinct",
    "Verif.ClassRef.c65_root",
    "Verif.ClassRef.c65_untouched",
    "Verif.ClassRef.c65_flags_partial",
    "Verif.ClassRef.c65_links_partial",
    "Verif.ClassRef.c65_owners_partial",
    "Verif.ClassRef.c65_unlink",
    "Verif.ClassRef.c65_class",
    "Verif.ClassRef.c65_reference",
    "Verif.ClassRef.c65_found",
    "Verif.ClassRef.c65_plain",
    "Verif.ClassRef.c65_unknown_type",
    "Verif.ClassRef.c65_no_panic_refuted",
    "Verif.ClassRef.c65_order_refuted",
    "Verif.ClassRef.c65_other_name_refuted",
    "Verif.ClassRef.c65_use_refuted",
    "Verif.ClassRef.c65_never_ends"
   ],
   "note": "Proved for all type graphs: what is added, what changes, owners of links in the usual situation, when it ends, and that models without references aren't affected. Refuted: references that aren't right panic or are ignored instead of being reported (c65_no_panic_refuted, c65_unknown_type), circular types never end (c65_never_ends), and the result depends on the order of declarations (c65_order_refuted, c65_use_refuted, c65_other_name_refuted)."
  },
  {
   "property": "C69",
   "status": "proved",
   "theorems": [
    "Verif.Language.c69_unambiguous",
    "Verif.Language.c69_accepts",
    "Verif.Language.c69_parse_iff"
   ],
   "note": "Grammar in Spec/Parser.lean. What the parser does after a syntax error isn't modelled."
  },
  {
   "property": "C70",
   "status": "proved",
   "theorems": [
    "Verif.Language.c70_step",
    "Verif.Language.c70_step_unique",
    "Verif.Language.c70_scan"
   ],
   "note": "Rules in Spec/Lexer.lean."
  },
  {
   "property": "C71",
   "status": "proved",
   "theorems": [
    "Verif.Language.c71_written_iff",
    "Verif.Language.c71_layout"
   ],
   "note": ""
  },
  {
   "property": "C72",
   "status": "partial",
   "theorems": [
    "Verif.Language.c72_everything_refuted",
    "Verif.Language.c72_everything_partial",
    "Verif.Language.c72_ignored"
   ],
   "note": "False: c72_everything_refuted. Exact description of what is ignored: c72_everything_partial, c72_ignored."
  },
  {
   "property": "C73",
   "status": "partial",
   "theorems": [
    "Verif.Language.c73_trees_iff",
    "Verif.Language.c73_names",
    "Verif.Language.c73_keyword_names_refuted"
   ],
   "note": "False for keywords: c73_keyword_names_refuted. c73_trees_iff is the exact set of trees."
  },
  {
   "property": "C74",
   "status": "partial",
   "theorems": [
    "Verif.Language.c74_string_iff",
    "Verif.Language.c74_literal_iff",
    "Verif.Language.c74_literal_error",
    "Verif.Language.c74_plain",
    "Verif.Language.c74_every_string",
    "Verif.Language.c74_go_strings_refuted",
    "Verif.Language.c74_go_strings_partial",
    "Verif.Language.c74_annotation",
    "Verif.Language.c74_annotation_errors"
   ],
   "note": "False for strings of Go with escaped quotes (c74_go_strings_refuted); everything else is proved."
  },
  {
   "property": "C75",
   "status": "partial",
   "theorems": [
    "Verif.Language.c75_comments",
    "Verif.Language.c75_read",
    "Verif.Language.c75_errors",
    "Verif.Language.c75_accepted_iff",
    "Verif.Language.c75_same_line_refuted"
   ],
   "note": "Needs that nodes start in different lines: c75_same_line_refuted."
  },
  {
   "property": "C76",
   "status": "partial",
   "theorems": [
    "Verif.c76_model_partial",
    "Verif.c76_resource_names_partial",
    "Verif.c76_read_partial",
    "Verif.c76_directories_partial"
   ],
   "note": "Several directories can contribute to one version if the declarations are good after each directory. Needs also that computed names of lists and maps don't clash. Without that undefined types can go unnoticed (c18_versions_refuted, c20_versions_refuted, c60_list_refuted)."
  },
  {
   "property": "C77",
   "status": "partial",
   "theorems": [
    "Verif.Language.c77_read_partial",
    "Verif.Language.c77_returned",
    "Verif.Language.c77_no_reporter"
   ],
   "note": "Sufficient conditions and necessary conditions are proved, from the texts to the content of the model. Missing: the exact condition when elements share lines or names of lists clash, and the recovery of the parser after syntax errors."
  },
  {
   "property": "C78",
   "status": "partial",
   "theorems": [
    "Verif.GoRef.c78_field_iff",
    "Verif.GoRef.c78_getter",
    "Verif.GoRef.c78_import",
    "Verif.GoRef.c78_reported",
    "Verif.GoRef.c78_builder_partial",
    "Verif.GoRef.c78_setter_type",
    "Verif.GoRef.c78_builder_here_iff",
    "Verif.GoRef.c78_builder_version_iff",
    "Verif.GoRef.c78_parameter_partial",
    "Verif.GoRef.c78_request_iff",
    "Verif.GoRef.c78_response_iff",
    "Verif.GoRef.c78_zero",
    "Verif.GoRef.c78_names",
    "Verif.GoRef.c78_names_lists",
    "Verif.GoRef.c78_names_errors",
    "Verif.GoRef.c78_list_packages",
    "Verif.GoRef.c78_value_errors",
    "Verif.GoRef.c78_assigned_iff",
    "Verif.GoRef.c78_enum_refuted",
    "Verif.GoRef.c78_version_refuted",
    "Verif.GoRef.c78_selector_refuted",
    "Verif.GoRef.c78_items_refuted",
    "Verif.GoRef.c78_parameter_refuted"
   ],
   "note": "The types of fields are characterised exactly (c78_field_iff), and so are the setters of requests and the getters of responses (c78_request_iff, c78_response_iff). The types of builders and parameters are proved right for enumerated types used in their own version and versions named with one word, which are the cases where the claim is true. The full claim is refuted with concrete models by c78_enum_refuted, c78_version_refuted, c78_selector_refuted, c78_items_refuted and c78_parameter_refuted."
  },
  {
   "property": "C79",
   "status": "partial",
   "theorems": [
    "Verif.Files.c79_success_iff",
    "Verif.Files.c79_written",
    "Verif.Files.c79_failure",
    "Verif.Files.c79_stops",
    "Verif.Files.c79_order",
    "Verif.Files.c79_distinct_iff",
    "Verif.Files.c79_spec_file_iff",
    "Verif.Files.c79_path",
    "Verif.Files.c79_spec_failure",
    "Verif.Files.c79_missing_spec",
    "Verif.Files.c79_each_file_partial",
    "Verif.Files.c79_go_command",
    "Verif.Files.c79_openapi_command",
    "Verif.Files.c79_check_command",
    "Verif.Files.c79_twins_refuted",
    "Verif.Files.c79_metadata_refuted"
   ],
   "note": "Exact conditions for success, for the files written and for the absence of clashes. Each file has its own content only when no two names give the same file (c79_distinct_iff); refuted for classes whose names differ in the case of an initialism and for classes or resources called metadata. Names of services and versions that are usable as directories are assumed."
  },
  {
   "property": "C80",
   "status": "partial",
   "theorems": [
    "Verif.Report.c80_streams",
    "Verif.Report.c80_errors",
    "Verif.Report.c80_no_errors_iff",
    "Verif.Report.c80_returned",
    "Verif.Report.c80_format",
    "Verif.Report.c80_extra",
    "Verif.Report.c80_missing",
    "Verif.Report.c80_qualified",
    "Verif.Report.c80_distinct_iff",
    "Verif.Report.c80_types_refuted",
    "Verif.Report.c80_types_collide_refuted",
    "Verif.c80_add_reports_iff",
    "Verif.c80_get_reports_iff",
    "Verif.c80_list_reports_iff",
    "Verif.c80_post_reports_iff",
    "Verif.c80_search_reports_iff",
    "Verif.c80_update_reports_iff",
    "Verif.c80_delete_reports_iff_partial",
    "Verif.c80_delete_refuted",
    "Verif.c80_action_reports_iff"
   ],
   "note": "Streams, counter, formats and the exact messages of every category but Delete. Refuted: types are never written with the names of their owners (the condition of the code is met by all kinds), and the message about the type of a parameter of Delete names the method instead of the parameter (c80_delete_reports_iff_partial says what is reported). Messages are modelled by what they mention, not by their texts."
  },
  {
   "property": "C81",
   "status": "partial",
   "theorems": [
    "Verif.Docs.c81_no_errors",
    "Verif.Docs.c81_line_iff",
    "Verif.Docs.c81_resource",
    "Verif.Docs.c81_enum",
    "Verif.Docs.c81_struct",
    "Verif.Docs.c81_index",
    "Verif.Docs.c81_verbatim_iff",
    "Verif.Docs.c81_indentation_refuted",
    "Verif.Docs.c81_long_line",
    "Verif.Docs.c81_long_line_refuted",
    "Verif.Docs.c81_types_refuted",
    "Verif.Docs.c81_class_refuted",
    "Verif.Docs.c81_row_refuted",
    "Verif.Docs.c81_success_iff",
    "Verif.Docs.c81_written",
    "Verif.Docs.c81_failure",
    "Verif.Docs.c81_exit_iff",
    "Verif.Docs.c81_command",
    "Verif.Docs.c81_trim_iff",
    "Verif.Docs.c81_functions",
    "Verif.Docs.c81_conditions",
    "Verif.Docs.c81_classes",
    "Verif.Docs.c81_trim_markers",
    "Verif.Docs.c81_range",
    "Verif.Docs.c81_reported"
   ],
   "note": "Exact lines of all the pages when no line is too long for the scanner, exact effect of a line that is too long, exact exit code and files. Refuted: pages with a line of 65536 characters or more lose everything before it; indentation of examples is lost; types and directions are never shown; classes without attributes don't show the attributes that all classes have; documentation without dots breaks the tables. Lines are measured in characters instead of bytes; only the part of the language of templates that the templates use is modelled."
  },
  {
   "property": "C82",
   "status": "partial",
   "theorems": [
    "Verif.GoTime.c82_calendar",
    "Verif.GoTime.c82_days",
    "Verif.GoTime.c82_utc",
    "Verif.GoTime.c82_read_iff",
    "Verif.GoTime.c82_read_back",
    "Verif.GoTime.c82_round_trip_iff",
    "Verif.GoTime.c82_timestamp_iff",
    "Verif.GoTime.c82_query_iff",
    "Verif.GoTime.c82_distinct",
    "Verif.GoTime.c82_fraction_refuted",
    "Verif.GoTime.c82_year_refuted",
    "Verif.GoTime.c82_offset_refuted",
    "Verif.GoTime.c82_document",
    "Verif.GoTime.c82_document_seconds",
    "Verif.GoTime.c82_parameter",
    "Verif.GoTime.c82_sendable",
    "Verif.GoTime.c82_error",
    "Verif.GoTime.c82_error_round_trip",
    "Verif.GoTime.c82_zero"
   ],
   "note": "False in general: fractions of seconds are lost in documents and query parameters, years that don't have four digits can't be read back, and offsets with seconds shift the date (all refuted with witnesses). The equivalences say exactly which dates survive in documents, query parameters and timestamps of errors. The lenient forms accepted by time.Parse (hours of one digit, fractions with a comma) aren't modelled."
  },
  {
   "property": "C83",
   "status": "partial",
   "theorems": [
    "Verif.Decls.c83_declared",
    "Verif.Decls.c83_once_iff_partial",
    "Verif.Decls.c83_metadata_refuted",
    "Verif.Decls.c83_derived_refuted",
    "Verif.Decls.c83_constant_refuted",
    "Verif.Decls.c83_client_refuted",
    "Verif.Decls.c83_message_refuted",
    "Verif.Decls.c83_message_fine",
    "Verif.Decls.c83_annotation_refuted",
    "Verif.Decls.c83_struct_uses",
    "Verif.Decls.c83_list_uses",
    "Verif.Decls.c83_map_uses",
    "Verif.Decls.c83_scalar_uses",
    "Verif.Decls.c83_uses_declared_partial",
    "Verif.Decls.c83_list_of_lists_refuted",
    "Verif.Decls.c83_client_uses",
    "Verif.Decls.c83_client_declared"
   ],
   "note": "Exact table of the names declared for every version. False in general (refuted with a class Metadata, names that look like derived names, constants, clients, messages, polling, annotations and lists of lists). Proved: if the names of the model don't look like derived names then each name is declared once exactly when things of the same kind have different names; the names used by attributes whose lists are of scalars or structs, and by the clients, are declared. The names used by the builders and the helpers, and the selectors of other packages, aren't part of this."
  },
  {
   "property": "C84",
   "status": "partial",
   "theorems": [
    "Verif.Members.c84_object_iff_partial",
    "Verif.Members.c84_builder_iff_partial",
    "Verif.Members.c84_object_refuted",
    "Verif.Members.c84_lists",
    "Verif.Members.c84_fixed_members",
    "Verif.Members.c84_client_iff_partial",
    "Verif.Members.c84_client_refuted",
    "Verif.Members.c84_service_iff_partial",
    "Verif.Members.c84_request_iff_partial",
    "Verif.Members.c84_response_iff_partial",
    "Verif.Members.c84_poll_request_iff_partial",
    "Verif.Members.c84_poll_response_iff_partial",
    "Verif.Members.c84_poll_refuted"
   ],
   "note": "False in general (refuted with attributes, methods, locators and parameters). The equivalences say exactly when the members of each generated type are different, for names that start with a letter; the hypothesis rules out annotations that give names that aren't exported."
  },
  {
   "property": "C85",
   "status": "partial",
   "theorems": [
    "Verif.Outcome.c85_type_file",
    "Verif.Outcome.c85_enum_file",
    "Verif.Outcome.c85_builder_file",
    "Verif.Outcome.c85_json_file",
    "Verif.Outcome.c85_list_files",
    "Verif.Outcome.c85_types_first",
    "Verif.Outcome.c85_method_json",
    "Verif.Outcome.c85_client_file",
    "Verif.Outcome.c85_no_crash",
    "Verif.Outcome.c85_errors_file",
    "Verif.Outcome.c85_wanted",
    "Verif.Outcome.c85_other_files",
    "Verif.Outcome.c85_success_iff",
    "Verif.Outcome.c85_object_methods",
    "Verif.Outcome.c85_collection_methods",
    "Verif.Outcome.c85_update_methods",
    "Verif.Outcome.c85_accepted_refuted",
    "Verif.Outcome.c85_large_class_refuted",
    "Verif.Outcome.c85_items_refuted"
   ],
   "note": "False in general (refuted with an attribute that is a list of lists, with a class of 62 attributes, and with a second parameter named Items). The equivalence says exactly which accepted models are generated, and c85_no_crash that none of them makes the generators crash. What the reader guarantees before the checks (FromReader) is a hypothesis, proved for the models that the reader returns in C86."
  },
  {
   "property": "C86",
   "status": "partial",
   "theorems": [
    "Verif.Whole.c86_from_reader",
    "Verif.Whole.c86_rejected",
    "Verif.Whole.c86_generate_iff",
    "Verif.Whole.c86_files",
    "Verif.Whole.c86_no_crash",
    "Verif.Whole.c86_expressible_iff_partial",
    "Verif.Whole.c86_usable_partial",
    "Verif.Whole.c86_sources_partial",
    "Verif.Whole.c86_read_not_generated_refuted",
    "Verif.Whole.c86_two_errors_refuted"
   ],
   "note": "False in general (refuted with an attribute whose type is a list of the predefined list StringList, which the reader accepts and the generators don't). For readable directories with good declarations (the hypotheses of C76) and usable names, c86_sources_partial says exactly which declarations make the command succeed; what is left as a property of the model, and not of the files, is that the checks accept it. Without those hypotheses c86_generate_iff says when it succeeds in terms of the model, and c86_no_crash and c86_rejected what happens otherwise."
  },
  {
   "property": "C87",
   "status": "partial",
   "theorems": [
    "Verif.Accept.c87_read_partial",
    "Verif.Accept.c87_checked_iff_partial",
    "Verif.Accept.c87_generate_iff_partial"
   ],
   "note": "Proved for readable sources with good declarations (as in C76) where the parameters for paging of a method aren't declared twice; when they are, only the first of them after an unstable sort is checked, so the result isn't determined by the source."
  },
  {
   "property": "C88",
   "status": "partial",
   "theorems": [
    "Verif.Whole.c88_unique",
    "Verif.Whole.c88_exists_iff",
    "Verif.Whole.c88_types_partial",
    "Verif.Whole.c88_fields_partial",
    "Verif.Whole.c88_parameters_partial",
    "Verif.Whole.c88_spelling_refuted"
   ],
   "note": "False in general: the name of a type is the one of its first use, which can be written in another way (refuted). Proved when all the uses of the name of a declared type are the same name as in the declaration, for readable sources with good declarations (as in C76) without @ref, whose Go names and the names of the versions have no dots. Attributes that are links to lists of things that aren't objects, and items that aren't lists of objects, have no Go type: c88_exists_iff says which ones have it."
  },
  {
   "property": "C89",
   "status": "partial",
   "theorems": [
    "Verif.TypesCode.c89_enum",
    "Verif.TypesCode.c89_written_iff",
    "Verif.TypesCode.c89_struct_partial",
    "Verif.TypesCode.c89_errors",
    "Verif.TypesCode.c89_imports",
    "Verif.TypesCode.c89_metadata",
    "Verif.TypesCode.c89_balanced",
    "Verif.TypesCode.c89_bitmap"
   ],
   "note": "False for the types that use all the 64 bits: the mask of the last attribute is a negative number (c31_bit63_refuted). Proved for all the others: what is in the file, except for blank lines and blanks at the start and end of lines, when it is written, and which packages it imports. The file is truncated if a line of the code has 65536 characters or more."
  },
  {
   "property": "C90",
   "status": "proved",
   "theorems": [
    "Verif.TypesRun.c90_class",
    "Verif.TypesRun.c90_empty",
    "Verif.TypesRun.c90_getters",
    "Verif.TypesRun.c90_class_list",
    "Verif.TypesRun.c90_list",
    "Verif.TypesRun.c90_setters",
    "Verif.TypesRun.c90_slice",
    "Verif.TypesRun.c90_loops",
    "Verif.TypesRun.c90_metadata"
   ],
   "note": "For the declarations that C89 proves to be in the files. The hypothesis is that the code compiles: nothing is declared twice (C84 says when that happens). The functions given to Each and Range can have any state, but they don't change the list while it is visited. The methods of the model that other properties are about are therefore those of the generated text."
  },
  {
   "property": "C91",
   "status": "partial",
   "theorems": [
    "Verif.BuildersCode.c91_written_iff",
    "Verif.BuildersCode.c91_builder_partial",
    "Verif.BuildersCode.c91_list",
    "Verif.BuildersCode.c91_errors",
    "Verif.BuildersCode.c91_imports"
   ],
   "note": "False for the types that use all the 64 bits: the mask of the last attribute is a negative number (c31_bit63_refuted). Proved for all the others: what is in the file, except for blank lines and blanks at the start and end of lines, when it is written, and which packages it imports. The file is truncated if a line of the code has 65536 characters or more."
  },
  {
   "property": "C92",
   "status": "proved",
   "theorems": [
    "Verif.BuildersRun.c92_new",
    "Verif.BuildersRun.c92_newList",
    "Verif.BuildersRun.c92_link",
    "Verif.BuildersRun.c92_id",
    "Verif.BuildersRun.c92_href",
    "Verif.BuildersRun.c92_set",
    "Verif.BuildersRun.c92_items",
    "Verif.BuildersRun.c92_empty",
    "Verif.BuildersRun.c92_emptyList",
    "Verif.BuildersRun.c92_build",
    "Verif.BuildersRun.c92_buildList"
   ],
   "note": "For the declarations that C89 and C91 prove to be in the files. The hypotheses are that the code compiles (nothing is declared twice, fields have the zero values of their types) and that the memory contains the builders of the model, which is true of the empty memory and after each call. Build is related to the recursion of the model with its limit of calls: for builders that contain themselves nothing is said. The call Copy is the subject of C93."
  },
  {
   "property": "C93",
   "status": "proved",
   "theorems": [
    "Verif.BuildersRun.c93_copy",
    "Verif.BuildersRun.c93_copyList",
    "Verif.BuildersRun.c93_clone"
   ],
   "note": "For the declarations that C89 and C91 prove to be in the files, with the hypotheses of C92. The object that is copied can share memory with other objects and with the builders, but it isn't the builder itself. The objects are trees, so an object that contains itself isn't copied; running its Copy wouldn't end. c93_clone adds the hypothesis that the elements of lists and maps are scalars, structs or classes, which C42 needs."
  },
  {
   "property": "C94",
   "status": "proved",
   "theorems": [
    "Verif.ModelRun.c94_loaded",
    "Verif.ModelRun.c94_program",
    "Verif.ModelRun.c94_whole",
    "Verif.ModelRun.c94_zeros",
    "Verif.ModelRun.c94_getters",
    "Verif.ModelRun.c94_clone",
    "Verif.ModelRun.c94_schema"
   ],
   "note": "c94_loaded, c94_program and c94_whole compose what is read with C89, C91, C92 and C93. Packages are identified by their names, not by their import paths, so a selection of versions where two services have a version with the same name is one program only if the names of the types are different; each service can be taken alone. Models with references to classes of other models (@ref) are not covered by c94_loaded, but by c94_whole if the types are where the code expects them: the zero value of an enumerated type of another version is written without its package, so Placed excludes it."
  },
  {
   "property": "C95",
   "status": "partial",
   "theorems": [
    "Verif.JsonCode.c95_written_iff",
    "Verif.JsonCode.c95_list_written_iff",
    "Verif.JsonCode.c95_struct_partial",
    "Verif.JsonCode.c95_list",
    "Verif.JsonCode.c95_errors",
    "Verif.JsonCode.c95_imports",
    "Verif.JsonCode.c95_list_imports",
    "Verif.JsonCode.c95_object"
   ],
   "note": "False for the types that use all the 64 bits: the mask of the last attribute is a negative number (c31_bit63_refuted). Proved for all the others: what is in the files of structs, classes and lists, except for blank lines and blanks at the start and end of lines, when they are written, and which packages they import. The files are truncated if a line of the code has 65536 characters or more."
  },
  {
   "property": "C96",
   "status": "proved",
   "theorems": [
    "Verif.JsonRun.c96_write",
    "Verif.JsonRun.c96_write_list",
    "Verif.JsonRun.c96_marshal",
    "Verif.JsonRun.c96_marshal_list",
    "Verif.JsonRun.c96_document"
   ],
   "note": "The program is any one that contains the declarations of C89, C91 and C95 for its types and is accepted by the compiler as to repeated names. The jsoniter stream is modelled by the list of tokens that have been written; calls are executed with a limit for calls inside of calls, and any limit bigger than the size of the value gives this result."
  },
  {
   "property": "C97",
   "status": "proved",
   "theorems": [
    "Verif.JsonRun.c97_read",
    "Verif.JsonRun.c97_read_list",
    "Verif.JsonRun.c97_read_error",
    "Verif.JsonRun.c97_unmarshal",
    "Verif.JsonRun.c97_unmarshal_list",
    "Verif.JsonRun.c97_source",
    "Verif.JsonRun.c97_round_trip"
   ],
   "note": "The program is any one that contains the declarations of C89, C91 and C95 for its types and is accepted by the compiler as to repeated names. The jsoniter iterator is modelled by the list of tokens that remain and by whether it has an error; how bytes are split into tokens isn't modelled. The elements of lists and maps aren't maps (Flat): no code is generated for the others (C85), and it would use the variable item for two things. Calls and loops are executed with limits, and any limits bigger than the length of the document give this result. c97_round_trip needs the hypotheses of C38."
  },
  {
   "property": "C98",
   "status": "proved",
   "theorems": [
    "Verif.ModelRun.c98_loaded",
    "Verif.ModelRun.c98_program",
    "Verif.ModelRun.c98_whole",
    "Verif.ModelRun.c98_proper",
    "Verif.ModelRun.c98_names",
    "Verif.ModelRun.c98_marshal",
    "Verif.ModelRun.c98_unmarshal",
    "Verif.ModelRun.c98_marshal_list",
    "Verif.ModelRun.c98_unmarshal_list",
    "Verif.ModelRun.c98_round_trip"
   ],
   "note": "Composition of C75-C88 (what is loaded), C89, C91 and C95 (the code) and C96 and C97 (what it does). The conditions on names (GoodVersions, GoodNames, GoodJson, GoodTags) are needed because the generators accept models whose code doesn't compile or mixes attributes, see the findings. GoodJson excludes lists of lists and lists and maps of maps, and links to lists of scalars."
  },
  {
   "property": "C99",
   "status": "proved",
   "theorems": [
    "Verif.MethodsCode.c99_written_iff",
    "Verif.MethodsCode.c99_code",
    "Verif.MethodsCode.c99_errors",
    "Verif.MethodsCode.c99_imports",
    "Verif.MethodsCode.c99_accepted"
   ],
   "note": "The JSON support files of resources, with templates copied verbatim. Blank lines and indentation aren't compared, because the files are formatted later. c99_accepted uses C11-C16 for the checks. A file is also reported as wrong, although it is written, if a line of its code has 65536 characters or more."
  },
  {
   "property": "C100",
   "status": "proved",
   "theorems": [
    "Verif.MethodsRun.c100_write",
    "Verif.MethodsRun.c100_read",
    "Verif.MethodsRun.c100_read_no_source"
   ],
   "note": "For the code of C99, with the semantics of C96 and C97. The parameters obtained by a method have different names in Go (otherwise they are one field). A parameter of interface type that contains nil can't be distinguished from one without value. When the model says that the code of a method doesn't compile (no body, items that aren't a list, or a body whose type has no Marshal function) nothing is claimed about running it; the checks and C85 say when that happens. Calls and loops are executed with limits, and any limits bigger than the size of the values or the length of the document give this result."
  },
  {
   "property": "C101",
   "status": "proved",
   "theorems": [
    "Verif.JsonCode.c101_file",
    "Verif.JsonCode.c101_errors",
    "Verif.JsonCode.c101_imports",
    "Verif.JsonRun.c101_marshal",
    "Verif.JsonRun.c101_unmarshal",
    "Verif.JsonRun.c101_source",
    "Verif.JsonRun.c101_round"
   ],
   "note": "The template is copied verbatim. The semantics of the libraries are those of C96 and C97. The reading is stated for loops whose limit is bigger than the length of the document."
  },
  {
   "property": "C102",
   "status": "proved",
   "theorems": [
    "Verif.ModelRun.c102_linked",
    "Verif.ModelRun.c102_write",
    "Verif.ModelRun.c102_read",
    "Verif.ModelRun.c102_read_no_source",
    "Verif.ModelRun.c102_bodies",
    "Verif.ModelRun.c102_repeated_refuted"
   ],
   "note": "Composition of C98, C99 and C100 for the resources of models that are read. The bodies must be objects or lists, which c102_bodies derives from the rules of the checks when the names of the parameters are different; c102_repeated_refuted shows an accepted method where they aren't. The conditions on names are those of C98, and that the Go names of the fields of a response are different."
  },
  {
   "property": "C103",
   "status": "partial",
   "theorems": [
    "Verif.MetricsCode.c103_file",
    "Verif.MetricsCode.c103_document",
    "Verif.MetricsCode.c103_declares_iff",
    "Verif.MetricsCode.c103_paths_partial",
    "Verif.MetricsCode.c103_backtick_refuted"
   ],
   "note": "Proved for all the trees whose labels have no backticks; c103_declares_iff says that with one the file never declares the variable, and c103_backtick_refuted gives a model. Partial only because it is false in general. The encoder of the standard library is modelled for the values that are used; texts are lists of characters, so bytes that aren't UTF-8 aren't considered."
  },
  {
   "property": "C104",
   "status": "partial",
   "theorems": [
    "Verif.ErrorsCode.c104_none",
    "Verif.ErrorsCode.c104_one",
    "Verif.ErrorsCode.c104_two_refuted",
    "Verif.ErrorsCode.c104_written_iff",
    "Verif.ErrorsCode.c104_reports",
    "Verif.ErrorsCode.c104_sources_partial"
   ],
   "note": "False for versions with two or more errors: c104_two_refuted proves that the file is never written for them. Proved for the rest; c104_sources_partial is for sources with good declarations."
  },
  {
   "property": "C105",
   "status": "partial",
   "theorems": [
    "Verif.ServiceClient.c105_file",
    "Verif.ServiceClient.c105_imports",
    "Verif.ServiceClient.c105_versions_imported",
    "Verif.ServiceClient.c105_written_iff",
    "Verif.ServiceClient.c105_reports",
    "Verif.ServiceClient.c105_names",
    "Verif.ServiceClient.c105_distinct_refuted"
   ],
   "note": "The part that says that the methods are different is false: c105_distinct_refuted has two versions with the same method. The rest is proved for all the services whose versions have usable names."
  },
  {
   "property": "C106",
   "status": "proved",
   "theorems": [
    "Verif.ResourceClient.c106_client",
    "Verif.ResourceClient.c106_errors_iff",
    "Verif.ResourceClient.c106_reports",
    "Verif.ResourceClient.c106_paths",
    "Verif.ResourceClient.c106_chain",
    "Verif.ResourceClient.c106_shapes"
   ],
   "note": "For the part of the file that declares the client; the requests and responses that follow aren't in this model."
  },
  {
   "property": "C107",
   "status": "partial",
   "theorems": [
    "Verif.MessagesCode.c107_request",
    "Verif.MessagesCode.c107_response",
    "Verif.MessagesCode.c107_reports",
    "Verif.MessagesCode.c107_imports",
    "Verif.MessagesCode.c107_functions",
    "Verif.MessagesCode.c107_sent",
    "Verif.MessagesCode.c107_types",
    "Verif.MessagesCode.c107_query_pointer",
    "Verif.MessagesCode.c107_query_refuted"
   ],
   "note": "The lines, problems, imports and functions are proved for all methods. That the query parameters that are dereferenced are pointers is false for the interface type (c107_query_refuted), and proved for the rest of the parameters to which C78 applies."
  },
  {
   "property": "C108",
   "status": "proved",
   "theorems": [
    "Verif.ClientFile.c108_panics_iff",
    "Verif.ClientFile.c108_reports",
    "Verif.ClientFile.c108_file",
    "Verif.ClientFile.c108_written_iff",
    "Verif.ClientFile.c108_poll_calls",
    "Verif.ClientFile.c108_imports"
   ],
   "note": "The lines and imports of the file, when it is written, the problems and panics, and that what polling calls is declared, for all resources."
  },
  {
   "property": "C109",
   "status": "partial",
   "theorems": [
    "Verif.Support.c109_file",
    "Verif.Support.c109_errors",
    "Verif.Support.c109_imports",
    "Verif.Support.c109_packages",
    "Verif.Support.c109_exact_iff_partial",
    "Verif.Support.c109_exact_refuted",
    "Verif.Support.c109_functions",
    "Verif.Support.c109_calls",
    "Verif.Support.c109_templates"
   ],
   "note": "Everything is proved except that the imports are those that the code uses, which is false for two of the four files: c109_packages says exactly what is missing and what isn't used. The uses of a package are found in the text of the lines, without comments nor strings, among the fifteen packages that the generators use."
  },
  {
   "property": "C110",
   "status": "partial",
   "theorems": [
    "Verif.Wiring.c110_error_iff",
    "Verif.Wiring.c110_ok_iff",
    "Verif.Wiring.c110_parts_partial",
    "Verif.Wiring.c110_parts_refuted",
    "Verif.Wiring.c110_mandatory_settable",
    "Verif.Wiring.c110_optional",
    "Verif.Wiring.c110_go",
    "Verif.Wiring.c110_spec",
    "Verif.Wiring.c110_docs",
    "Verif.Wiring.c110_options",
    "Verif.Wiring.c110_options_suffice"
   ],
   "note": "Everything is proved except that what is given to a builder is in the object, which is false for the binding calculator of two generators: c110_parts_partial says what the objects contain."
  },
  {
   "property": "C111",
   "status": "partial",
   "theorems": [
    "Verif.ModelWriter.c111_error_iff",
    "Verif.ModelWriter.c111_announces",
    "Verif.ModelWriter.c111_failed",
    "Verif.ModelWriter.c111_disk",
    "Verif.ModelWriter.c111_written_refuted"
   ],
   "note": "When it fails, with what messages, and what it announces are proved. That the model is written to the files is false: nothing is written."
  },
  {
   "property": "C112",
   "status": "partial",
   "theorems": [
    "Verif.GoClient.c112_arguments",
    "Verif.GoClient.c112_start",
    "Verif.GoClient.c112_answered",
    "Verif.GoClient.c112_common",
    "Verif.GoClient.c112_getters_partial",
    "Verif.GoClient.c112_getters_refuted",
    "Verif.GoClient.c112_metadata_partial",
    "Verif.GoClient.c112_metadata_sent",
    "Verif.GoClient.c112_metadata_content"
   ],
   "note": "What polling returns, and what the getters return or when they panic, are proved. That they never panic is false: the getters of parameters and of the metadata panic when there is no response. What is left in a response whose body can't be read isn't modelled."
  },
  {
   "property": "C113",
   "status": "partial",
   "theorems": [
    "Verif.Buffers.c113_go_error_iff",
    "Verif.Buffers.c113_doc_error_iff",
    "Verif.Buffers.c113_spec",
    "Verif.Buffers.c113_go_file_partial",
    "Verif.Buffers.c113_paths",
    "Verif.Buffers.c113_go_package_partial",
    "Verif.Buffers.c113_doc_file_partial",
    "Verif.Buffers.c113_functions",
    "Verif.Buffers.c113_service_package",
    "Verif.Buffers.c113_service_file_partial",
    "Verif.Buffers.c113_version_package_partial",
    "Verif.Buffers.c113_version_file_partial",
    "Verif.Buffers.c113_spec_file",
    "Verif.Buffers.c113_inside_refuted"
   ],
   "note": "When buffers are created and what their files, packages and functions are is proved. That the files are inside the output directory is proved for packages without the parts . and .., and is false otherwise."
  }
 ]
}