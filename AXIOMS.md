# Axioms of each theorem

Written by `tools/axioms.py` from `#print axioms`.

## C01

* `Verif.c01_compare_opposite`: Quot.sound, propext
* `Verif.c01_compare_range`: propext
* `Verif.c01_compare_zero`: Quot.sound, propext
* `Verif.c01_less_lexicographic`: Quot.sound, propext
* `Verif.c01_compare_trans`: Classical.choice, Quot.sound, propext
* `Verif.c01_less_strict_order`: Quot.sound, propext
* `Verif.c01_equals_iff`: Classical.choice, Quot.sound, propext

## C02

* `Verif.c02_parse_spells_iff_partial`: Classical.choice, Quot.sound, propext
* `Verif.c02_no_empty_word_partial`: Classical.choice, Quot.sound, propext
* `Verif.c02_parse_spells_refuted`: propext

## C03

* `Verif.c03_parse_camel`: Classical.choice, Quot.sound, propext
* `Verif.c03_camel_injective`: Classical.choice, Quot.sound, propext
* `Verif.c03_camel_injective_all_refuted`: propext

## C04

* `Verif.c04_join_parse`: Quot.sound, propext
* `Verif.c04_toText_parse`: Quot.sound, propext
* `Verif.c04_words`: Quot.sound, propext
* `Verif.c04_parse_toText`: Quot.sound, propext
* `Verif.c04_joined`: propext

## C05

* `Verif.c05_listing_sorted`: Classical.choice, Quot.sound, propext
* `Verif.c05_listing_unique`: Classical.choice, Quot.sound, propext
* `Verif.c05_reachable`: Quot.sound, propext
* `Verif.c05_insertion_order`: Classical.choice, Quot.sound, propext
* `Verif.c05_members_sorted`: Classical.choice, Quot.sound, propext
* `Verif.c05_members_order`: Classical.choice, Quot.sound, propext
* `Verif.c05_nil_ignored`: propext

## C06

* `Verif.c06_listing_panics`: propext
* `Verif.c06_listing_refuted`: propext
* `Verif.c06_listing_partial`: propext

## C07

* `Verif.c07_find_last`: Quot.sound, propext
* `Verif.c07_find_iff`: Quot.sound, propext
* `Verif.c07_find_other`: propext
* `Verif.c07_find_member`: Classical.choice, Quot.sound, propext
* `Verif.c07_builtin_types`: Classical.choice, Quot.sound, propext

## C08

* `Verif.c08_paths_are_chains`: Classical.choice, Quot.sound, propext
* `Verif.c08_loop_diverges`: Classical.choice, Quot.sound, propext

## C09

* `Verif.c09_loops_reported_iff`: Classical.choice, Quot.sound, propext
* `Verif.c09_unreachable_not_reported`: Classical.choice, Quot.sound, propext

## C10

* `Verif.c10_accepted_finite`: Classical.choice, Quot.sound, propext
* `Verif.c10_paths_deterministic`: Quot.sound, propext

## C100

* `Verif.MethodsRun.c100_write`: Classical.choice, Quot.sound, propext
* `Verif.MethodsRun.c100_read`: Classical.choice, Quot.sound, propext
* `Verif.MethodsRun.c100_read_no_source`: Classical.choice, Quot.sound, propext

## C101

* `Verif.JsonCode.c101_file`: Classical.choice, Quot.sound, propext
* `Verif.JsonCode.c101_errors`: Quot.sound, propext
* `Verif.JsonCode.c101_imports`: Classical.choice, Quot.sound, propext
* `Verif.JsonRun.c101_marshal`: Classical.choice, Quot.sound, propext
* `Verif.JsonRun.c101_unmarshal`: Classical.choice, Quot.sound, propext
* `Verif.JsonRun.c101_source`: Classical.choice, Quot.sound, propext
* `Verif.JsonRun.c101_round`: Classical.choice, Quot.sound, propext

## C102

* `Verif.ModelRun.c102_linked`: Classical.choice, Quot.sound, propext
* `Verif.ModelRun.c102_write`: Classical.choice, Quot.sound, propext
* `Verif.ModelRun.c102_read`: Classical.choice, Quot.sound, propext
* `Verif.ModelRun.c102_read_no_source`: Classical.choice, Quot.sound, propext
* `Verif.ModelRun.c102_bodies`: Classical.choice, Quot.sound, propext
* `Verif.ModelRun.c102_repeated_refuted`: Quot.sound, propext

## C103

* `Verif.MetricsCode.c103_file`: Classical.choice, Quot.sound, propext
* `Verif.MetricsCode.c103_document`: Classical.choice, Quot.sound, propext
* `Verif.MetricsCode.c103_declares_iff`: Classical.choice, Quot.sound, propext
* `Verif.MetricsCode.c103_paths_partial`: Classical.choice, Quot.sound, propext
* `Verif.MetricsCode.c103_backtick_refuted`: Classical.choice, Quot.sound, propext

## C104

* `Verif.ErrorsCode.c104_none`: Classical.choice, Quot.sound, propext
* `Verif.ErrorsCode.c104_one`: Classical.choice, Quot.sound, propext
* `Verif.ErrorsCode.c104_two_refuted`: Quot.sound, propext
* `Verif.ErrorsCode.c104_written_iff`: Classical.choice, Quot.sound, propext
* `Verif.ErrorsCode.c104_reports`: Classical.choice, Quot.sound, propext
* `Verif.ErrorsCode.c104_sources_partial`: Classical.choice, Quot.sound, propext

## C105

* `Verif.ServiceClient.c105_file`: Classical.choice, Quot.sound, propext
* `Verif.ServiceClient.c105_imports`: Classical.choice, Quot.sound, propext
* `Verif.ServiceClient.c105_versions_imported`: Classical.choice, Quot.sound, propext
* `Verif.ServiceClient.c105_written_iff`: Classical.choice, Quot.sound, propext
* `Verif.ServiceClient.c105_reports`: Classical.choice, Quot.sound, propext
* `Verif.ServiceClient.c105_names`: Classical.choice, Quot.sound, propext
* `Verif.ServiceClient.c105_distinct_refuted`: propext

## C106

* `Verif.ResourceClient.c106_client`: Classical.choice, Quot.sound, propext
* `Verif.ResourceClient.c106_errors_iff`: Classical.choice, Quot.sound, propext
* `Verif.ResourceClient.c106_reports`: Classical.choice, Quot.sound, propext
* `Verif.ResourceClient.c106_paths`: propext
* `Verif.ResourceClient.c106_chain`: Quot.sound, propext
* `Verif.ResourceClient.c106_shapes`: Classical.choice, Quot.sound, propext

## C107

* `Verif.MessagesCode.c107_request`: Quot.sound, propext
* `Verif.MessagesCode.c107_response`: Quot.sound, propext
* `Verif.MessagesCode.c107_reports`: Classical.choice, Quot.sound, propext
* `Verif.MessagesCode.c107_imports`: Classical.choice, Quot.sound, propext
* `Verif.MessagesCode.c107_functions`: propext
* `Verif.MessagesCode.c107_sent`: Quot.sound, propext
* `Verif.MessagesCode.c107_types`: propext
* `Verif.MessagesCode.c107_query_pointer`: Quot.sound, propext
* `Verif.MessagesCode.c107_query_refuted`: propext

## C108

* `Verif.ClientFile.c108_panics_iff`: Classical.choice, Quot.sound, propext
* `Verif.ClientFile.c108_reports`: Classical.choice, Quot.sound, propext
* `Verif.ClientFile.c108_file`: Classical.choice, Quot.sound, propext
* `Verif.ClientFile.c108_written_iff`: Classical.choice, Quot.sound, propext
* `Verif.ClientFile.c108_poll_calls`: Quot.sound, propext
* `Verif.ClientFile.c108_imports`: Classical.choice, Quot.sound, propext

## C109

* `Verif.Support.c109_file`: Classical.choice, Quot.sound, propext
* `Verif.Support.c109_errors`: Quot.sound, propext
* `Verif.Support.c109_imports`: Classical.choice, Quot.sound, propext
* `Verif.Support.c109_packages`: Quot.sound, propext
* `Verif.Support.c109_exact_iff_partial`: Classical.choice, Quot.sound, propext
* `Verif.Support.c109_exact_refuted`: Classical.choice, Quot.sound, propext
* `Verif.Support.c109_functions`: none
* `Verif.Support.c109_calls`: propext
* `Verif.Support.c109_templates`: propext

## C11

* `Verif.c11_add_accepted_iff`: Classical.choice, Quot.sound, propext

## C110

* `Verif.Wiring.c110_error_iff`: Quot.sound, propext
* `Verif.Wiring.c110_ok_iff`: Quot.sound, propext
* `Verif.Wiring.c110_parts_partial`: propext
* `Verif.Wiring.c110_parts_refuted`: propext
* `Verif.Wiring.c110_mandatory_settable`: propext
* `Verif.Wiring.c110_optional`: propext
* `Verif.Wiring.c110_go`: Quot.sound, propext
* `Verif.Wiring.c110_spec`: Quot.sound, propext
* `Verif.Wiring.c110_docs`: Quot.sound, propext
* `Verif.Wiring.c110_options`: Quot.sound, propext
* `Verif.Wiring.c110_options_suffice`: Quot.sound, propext

## C111

* `Verif.ModelWriter.c111_error_iff`: Quot.sound, propext
* `Verif.ModelWriter.c111_announces`: Quot.sound, propext
* `Verif.ModelWriter.c111_failed`: propext
* `Verif.ModelWriter.c111_disk`: propext
* `Verif.ModelWriter.c111_written_refuted`: propext

## C112

* `Verif.GoClient.c112_arguments`: propext
* `Verif.GoClient.c112_start`: Classical.choice, Quot.sound, propext
* `Verif.GoClient.c112_answered`: propext
* `Verif.GoClient.c112_common`: none
* `Verif.GoClient.c112_getters_partial`: Quot.sound, propext
* `Verif.GoClient.c112_getters_refuted`: propext
* `Verif.GoClient.c112_metadata_partial`: propext
* `Verif.GoClient.c112_metadata_sent`: Quot.sound, propext
* `Verif.GoClient.c112_metadata_content`: Quot.sound, propext

## C113

* `Verif.Buffers.c113_go_error_iff`: propext
* `Verif.Buffers.c113_doc_error_iff`: propext
* `Verif.Buffers.c113_spec`: propext
* `Verif.Buffers.c113_go_file_partial`: Classical.choice, Quot.sound, propext
* `Verif.Buffers.c113_paths`: Classical.choice, Quot.sound, propext
* `Verif.Buffers.c113_go_package_partial`: Classical.choice, Quot.sound, propext
* `Verif.Buffers.c113_doc_file_partial`: Classical.choice, Quot.sound, propext
* `Verif.Buffers.c113_functions`: Classical.choice, Quot.sound, propext
* `Verif.Buffers.c113_service_package`: Classical.choice, Quot.sound, propext
* `Verif.Buffers.c113_service_file_partial`: Classical.choice, Quot.sound, propext
* `Verif.Buffers.c113_version_package_partial`: Quot.sound, propext
* `Verif.Buffers.c113_version_file_partial`: Classical.choice, Quot.sound, propext
* `Verif.Buffers.c113_spec_file`: Classical.choice, Quot.sound, propext
* `Verif.Buffers.c113_inside_refuted`: propext

## C12

* `Verif.c12_delete_accepted_iff`: Classical.choice, Quot.sound, propext

## C13

* `Verif.c13_get_accepted_iff`: Classical.choice, Quot.sound, propext

## C14

* `Verif.c14_list_accepted_iff`: Classical.choice, Quot.sound, propext
* `Verif.c14_absent_paging_warns`: Classical.choice, Quot.sound, propext

## C15

* `Verif.c15_search_accepted_iff`: Classical.choice, Quot.sound, propext
* `Verif.c15_post_accepted_iff`: Classical.choice, Quot.sound, propext

## C16

* `Verif.c16_update_accepted_iff`: Classical.choice, Quot.sound, propext
* `Verif.c16_action_accepted_iff`: Classical.choice, Quot.sound, propext

## C17

* `Verif.c17_returned_iff`: Classical.choice, Quot.sound, propext
* `Verif.c17_no_reporter`: propext
* `Verif.c17_nothing_ignored`: Classical.choice, Quot.sound, propext
* `Verif.c17_everything_checked`: Classical.choice, Quot.sound, propext
* `Verif.c17_messages`: Quot.sound, propext
* `Verif.c17_files`: Quot.sound, propext
* `Verif.c17_write_results`: Classical.choice, Quot.sound, propext

## C18

* `Verif.c18_undefined_types_partial`: Classical.choice, Quot.sound, propext
* `Verif.c18_undefined_resources`: Classical.choice, Quot.sound, propext
* `Verif.c18_used_is_declared`: Classical.choice, Quot.sound, propext
* `Verif.c18_pointers`: Classical.choice, Quot.sound, propext
* `Verif.c18_accepted_iff_partial`: Classical.choice, Quot.sound, propext
* `Verif.c18_versions_refuted`: propext
* `Verif.c18_single_version`: Classical.choice, Quot.sound, propext

## C19

* `Verif.c19_same_content_partial`: Classical.choice, Quot.sound, propext
* `Verif.c19_same_verdict_partial`: Classical.choice, Quot.sound, propext
* `Verif.c19_declared_types_partial`: Classical.choice, Quot.sound, propext
* `Verif.c19_declared_resources`: Classical.choice, Quot.sound, propext
* `Verif.c19_declared_errors`: Classical.choice, Quot.sound, propext
* `Verif.c19_refuted`: propext

## C20

* `Verif.c20_duplicates_reported`: Classical.choice, Quot.sound, propext
* `Verif.c20_types_count_partial`: Classical.choice, Quot.sound, propext
* `Verif.c20_resources_count`: Classical.choice, Quot.sound, propext
* `Verif.c20_errors_count`: Classical.choice, Quot.sound, propext
* `Verif.c20_refuted`: propext
* `Verif.c20_versions_refuted`: propext

## C21

* `Verif.c21_elements`: Classical.choice, Quot.sound, propext
* `Verif.c21_completion`: Quot.sound, propext
* `Verif.c21_names`: Classical.choice, Quot.sound, propext
* `Verif.c21_every_type_has_list`: Classical.choice, Quot.sound, propext
* `Verif.c21_model`: Classical.choice, Quot.sound, propext

## C22

* `Verif.c22_lexer`: Quot.sound, propext
* `Verif.c22_block`: Classical.choice, Quot.sound, propext
* `Verif.c22_block_exists`: Classical.choice, Quot.sound, propext
* `Verif.c22_text_iff`: Classical.choice, Quot.sound, propext
* `Verif.c22_panic_iff`: Classical.choice, Quot.sound, propext
* `Verif.c22_errors_iff`: Classical.choice, Quot.sound, propext
* `Verif.c22_used_once`: Classical.choice, Quot.sound, propext
* `Verif.c22_own_block`: Classical.choice, Quot.sound, propext
* `Verif.c22_refuted`: Classical.choice, Quot.sound, propext
* `Verif.c22_blank_refuted`: propext

## C23

* `Verif.c23_directions`: propext
* `Verif.c23_parameters`: Classical.choice, Quot.sound, propext
* `Verif.c23_request_response`: propext

## C24

* `Verif.c24_set_variable_refuted`: none
* `Verif.c24_locators`: Quot.sound, propext
* `Verif.c24_reader`: Classical.choice, Quot.sound, propext

## C25

* `Verif.c25_action_iff`: Classical.choice, Quot.sound, propext
* `Verif.c25_query_iff`: Classical.choice, Quot.sound, propext
* `Verif.c25_body_iff`: Classical.choice, Quot.sound, propext
* `Verif.c25_split`: Classical.choice, Quot.sound, propext
* `Verif.c25_directions`: Classical.choice, Quot.sound, propext
* `Verif.c25_items_iff`: Classical.choice, Quot.sound, propext
* `Verif.c25_body_parameter_iff`: Classical.choice, Quot.sound, propext

## C26

* `Verif.c26_verb_and_status`: Classical.choice, Quot.sound, propext
* `Verif.c26_docs_agree`: Classical.choice, Quot.sound, propext

## C27

* `Verif.c27_refuted`: propext
* `Verif.c27_indistinguishable_iff_partial`: Classical.choice, Quot.sound, propext

## C28

* `Verif.c28_annotation_wins`: Classical.choice, Quot.sound, propext
* `Verif.c28_default_is_snake`: Classical.choice, Quot.sound, propext
* `Verif.c28_standard_methods`: Classical.choice, Quot.sound, propext
* `Verif.c28_not_a_string`: Classical.choice, Quot.sound, propext

## C29

* `Verif.c29_public`: propext
* `Verif.c29_private`: propext
* `Verif.c29_private_injective`: Quot.sound, propext
* `Verif.c29_annotation_refuted`: propext
* `Verif.c29_annotation`: Classical.choice, Quot.sound, propext
* `Verif.c29_file`: propext

## C30

* `Verif.c30_single_bit`: Classical.choice, Quot.sound, propext
* `Verif.c30_distinct_bits`: Classical.choice, Quot.sound, propext

## C31

* `Verif.c31_bitmap_type_iff`: Quot.sound, propext
* `Verif.c31_mask_fits_partial`: Classical.choice, Quot.sound, propext
* `Verif.c31_bit63_refuted`: Classical.choice, Quot.sound, propext

## C32

* `Verif.c32_line_comment`: Quot.sound, propext
* `Verif.c32_no_code`: Quot.sound, propext

## C33

* `Verif.c33_only_blank_lines_partial`: Classical.choice, Quot.sound, propext
* `Verif.c33_last_line_refuted`: Classical.choice, Quot.sound, propext
* `Verif.c33_only_blank_lines`: Classical.choice, Quot.sound, propext
* `Verif.c33_blank_line`: Quot.sound, propext

## C34

* `Verif.c34_bytes`: Classical.choice, Quot.sound, propext
* `Verif.c34_lines`: Classical.choice, Quot.sound, propext

## C35

* `Verif.c35_refuted`: propext
* `Verif.c35_same_package_iff_partial`: propext
* `Verif.c35_fixed_packages`: propext
* `Verif.c35_service_package`: propext
* `Verif.c35_imports`: propext
* `Verif.c35_metrics_import_refuted`: propext

## C36

* `Verif.c36_well_formed`: Classical.choice, Quot.sound, propext
* `Verif.c36_grammar`: propext

## C37

* `Verif.c37_object`: Classical.choice, Quot.sound, propext
* `Verif.c37_names`: Classical.choice, Quot.sound, propext
* `Verif.c37_list`: Classical.choice, Quot.sound, propext
* `Verif.c37_link`: propext
* `Verif.c37_map`: Classical.choice, Quot.sound, propext
* `Verif.c37_scalar`: Classical.choice, Quot.sound, propext
* `Verif.c37_types`: Quot.sound, propext

## C38

* `Verif.c38_round_trip`: Classical.choice, Quot.sound, propext
* `Verif.c38_marshal`: Classical.choice, Quot.sound, propext
* `Verif.c38_proper`: Classical.choice, Quot.sound, propext
* `Verif.c38_empty_key_refuted`: propext
* `Verif.c38_fraction_refuted`: propext
* `Verif.c38_link_refuted`: propext
* `Verif.c38_nil_item_refuted`: propext

## C39

* `Verif.c39_order_partial`: Classical.choice, Quot.sound, propext
* `Verif.c39_unknown_partial`: Classical.choice, Quot.sound, propext
* `Verif.c39_last_wins_partial`: Classical.choice, Quot.sound, propext
* `Verif.c39_map_partial`: Classical.choice, Quot.sound, propext
* `Verif.c39_nested_partial`: Classical.choice, Quot.sound, propext
* `Verif.c39_empty_name_refuted`: propext
* `Verif.c39_kind_refuted`: propext

## C40

* `Verif.c40_parse`: Quot.sound, propext
* `Verif.c40_unique`: Quot.sound, propext
* `Verif.c40_default`: propext
* `Verif.c40_types`: propext

## C41

* `Verif.GoBuilder.c41_get`: Quot.sound, propext
* `Verif.GoBuilder.c41_header`: Quot.sound, propext
* `Verif.GoBuilder.c41_builds_iff`: Classical.choice, Quot.sound, propext
* `Verif.GoBuilder.c41_build_unique`: Quot.sound, propext
* `Verif.GoBuilder.c41_success_refuted`: propext
* `Verif.GoBuilder.c41_map_shared`: propext
* `Verif.GoTypes.c41_getters`: propext

## C42

* `Verif.GoBuilder.c42_copy`: Classical.choice, Quot.sound, propext
* `Verif.GoBuilder.c42_total`: Classical.choice, Quot.sound, propext
* `Verif.GoBuilder.c42_equal_partial`: Classical.choice, Quot.sound, propext
* `Verif.GoBuilder.c42_then_set`: Classical.choice, Quot.sound, propext
* `Verif.GoBuilder.c42_refuted`: propext
* `Verif.GoBuilder.c42_copyList`: Classical.choice, Quot.sound, propext

## C43

* `Verif.GoBuilder.c43_link_partial`: Quot.sound, propext
* `Verif.GoBuilder.c43_false_refuted`: propext

## C44

* `Verif.GoBuilder.c44_builder`: Classical.choice, Quot.sound, propext
* `Verif.GoTypes.c44_empty`: Quot.sound, propext
* `Verif.GoTypes.c44_header`: Quot.sound, propext
* `Verif.GoTypes.c44_nil`: propext

## C45

* `Verif.GoBuilder.c45_builder`: Classical.choice, Quot.sound, propext
* `Verif.GoTypes.c45_items`: Quot.sound, propext
* `Verif.GoTypes.c45_get`: Quot.sound, propext
* `Verif.GoTypes.c45_iterate`: Quot.sound, propext
* `Verif.GoTypes.c45_iterate_unique`: Quot.sound, propext
* `Verif.GoTypes.c45_header`: propext
* `Verif.GoTypes.c45_metadata`: propext

## C46

* `Verif.GoClient.c46_client`: Classical.choice, Quot.sound, propext
* `Verif.GoHelpers.c46_arguments`: propext
* `Verif.GoHelpers.c46_result`: Classical.choice, Quot.sound, propext
* `Verif.GoHelpers.c46_ends`: Classical.choice, Quot.sound, propext
* `Verif.GoHelpers.c46_success`: Classical.choice, Quot.sound, propext
* `Verif.GoHelpers.c46_stops`: Classical.choice, Quot.sound, propext
* `Verif.GoHelpers.c46_deadline`: Classical.choice, Quot.sound, propext
* `Verif.GoHelpers.c46_deadline_silent`: Quot.sound, propext

## C47

* `Verif.GoClient.c47_request`: propext
* `Verif.GoClient.c47_empty`: propext
* `Verif.GoClient.c47_status_partial`: Quot.sound, propext
* `Verif.GoClient.c47_status_refuted`: propext
* `Verif.GoClient.c47_content`: Quot.sound, propext
* `Verif.GoClient.c47_broken`: Classical.choice, Quot.sound, propext
* `Verif.GoClient.c47_delete_refuted`: Classical.choice, Quot.sound, propext
* `Verif.GoClient.c47_server_error`: Classical.choice, Quot.sound, propext
* `Verif.GoClient.c47_object`: Classical.choice, Quot.sound, propext
* `Verif.GoClient.c47_metadata`: Quot.sound, propext
* `Verif.GoClient.c47_metadata_empty_refuted`: propext
* `Verif.GoClient.c47_getters`: propext
* `Verif.GoClient.c47_zero`: none

## C48

* `Verif.c48_path_partial`: Classical.choice, Quot.sound, propext
* `Verif.c48_relative_partial`: Quot.sound, propext
* `Verif.c48_id`: Classical.choice, Quot.sound, propext
* `Verif.c48_id_same`: Classical.choice, Quot.sound, propext
* `Verif.c48_id_parent`: Classical.choice, Quot.sound, propext
* `Verif.c48_id_refuted`: propext
* `Verif.c48_distinct`: Classical.choice, Quot.sound, propext
* `Verif.c48_template_partial`: Classical.choice, Quot.sound, propext
* `Verif.c48_metadata`: Classical.choice, Quot.sound, propext
* `Verif.c48_names`: Classical.choice, Quot.sound, propext

## C49

* `Verif.GoHelpers.c49_history`: Classical.choice, Quot.sound, propext
* `Verif.GoHelpers.c49_again`: Classical.choice, Quot.sound, propext
* `Verif.GoHelpers.c49_server`: Classical.choice, Quot.sound, propext

## C50

* `Verif.GoHelpers.c50_segments`: Quot.sound, propext
* `Verif.GoHelpers.c50_slashes`: Quot.sound, propext
* `Verif.GoHelpers.c50_root`: Quot.sound, propext

## C51

* `Verif.GoError.c51_builder`: Quot.sound, propext
* `Verif.GoError.c51_copy`: Quot.sound, propext
* `Verif.GoError.c51_nil`: propext
* `Verif.GoError.c51_write`: Quot.sound, propext
* `Verif.GoError.c51_read`: Classical.choice, Quot.sound, propext
* `Verif.GoError.c51_round_trip`: Classical.choice, Quot.sound, propext
* `Verif.GoError.c51_status`: Quot.sound, propext
* `Verif.GoError.c51_text_partial`: Classical.choice, Quot.sound, propext
* `Verif.GoError.c51_text_mentions_partial`: Classical.choice, Quot.sound, propext
* `Verif.GoError.c51_phrases`: propext
* `Verif.GoError.c51_text_href_refuted`: propext
* `Verif.GoError.c51_text_nil_refuted`: propext
* `Verif.GoError.c51_write_nil_refuted`: propext
* `Verif.GoError.c51_null_timestamp_refuted`: Classical.choice, Quot.sound, propext

## C52

* `Verif.GoError.c52_status_partial`: Quot.sound, propext
* `Verif.GoError.c52_range`: Quot.sound, propext
* `Verif.GoError.c52_informational_refuted`: Classical.choice, Quot.sound, propext
* `Verif.GoError.c52_switching`: Quot.sound, propext
* `Verif.GoError.c52_panic_refuted`: Quot.sound, propext
* `Verif.GoError.c52_fixed`: Quot.sound, propext

## C53

* `Verif.c53_buffer`: Classical.choice, Quot.sound, propext
* `Verif.c53_members`: Classical.choice, Quot.sound, propext
* `Verif.c53_write`: Classical.choice, Quot.sound, propext
* `Verif.c53_unbalanced`: propext

## C54

* `Verif.c54_references`: Classical.choice, Quot.sound, propext
* `Verif.c54_resolve`: Classical.choice, Quot.sound, propext
* `Verif.c54_resolve_iff`: Classical.choice, Quot.sound, propext
* `Verif.c54_foreign_refuted`: Classical.choice, Quot.sound, propext

## C55

* `Verif.c55_parameters_partial`: Classical.choice, Quot.sound, propext
* `Verif.c55_operations`: Classical.choice, Quot.sound, propext
* `Verif.c55_constants_refuted`: Classical.choice, Quot.sound, propext

## C56

* `Verif.c56_unique_partial`: Classical.choice, Quot.sound, propext
* `Verif.c56_root_refuted`: Classical.choice, Quot.sound, propext
* `Verif.c56_verbs_refuted`: Classical.choice, Quot.sound, propext
* `Verif.c56_schemas_refuted`: Classical.choice, Quot.sound, propext

## C57

* `Verif.c57_first_sentence`: Quot.sound, propext
* `Verif.c57_no_dot`: propext
* `Verif.c57_one_line`: Classical.choice, Quot.sound, propext
* `Verif.c57_line_breaks_refuted`: propext
* `Verif.c57_words_glued_refuted`: none

## C58

* `Verif.c58_files`: propext
* `Verif.c58_pages_differ`: Quot.sound, propext
* `Verif.c58_links_have_pages_partial`: Quot.sound, propext
* `Verif.c58_pages_iff`: Quot.sound, propext
* `Verif.c58_broken_link_refuted`: Quot.sound, propext
* `Verif.c58_overwritten_refuted`: propext
* `Verif.c58_display`: propext

## C59

* `Verif.c59_branch_iff`: Classical.choice, Quot.sound, propext
* `Verif.c59_tree_iff`: Classical.choice, Quot.sound, propext
* `Verif.c59_tree_root`: Quot.sound, propext

## C60

* `Verif.c60_reference_partial`: Classical.choice, Quot.sound, propext
* `Verif.c60_list_refuted`: propext
* `Verif.c60_map_refuted`: propext

## C61

* `Verif.c61_no_root_panics`: propext
* `Verif.c61_checks_finish_refuted`: propext
* `Verif.c61_no_target_panics`: propext
* `Verif.c61_checks_finish_partial`: Classical.choice, Quot.sound, propext

## C62

* `Verif.c62_version_accepted_iff`: Classical.choice, Quot.sound, propext
* `Verif.c62_model_accepted_iff`: Quot.sound, propext

## C63

* `Verif.c63_refuted`: propext
* `Verif.c63_fields_partial`: propext
* `Verif.c63_request_clash_iff_partial`: propext
* `Verif.c63_members`: Quot.sound, propext
* `Verif.c63_getters_partial`: propext
* `Verif.c63_message_names_refuted`: propext

## C64

* `Verif.c64_package_name`: Classical.choice, Quot.sound, propext
* `Verif.c64_leading_dash_refuted`: propext

## C65

* `Verif.ClassRef.c65_ends`: Classical.choice, Quot.sound, propext
* `Verif.ClassRef.c65_types`: Classical.choice, Quot.sound, propext
* `Verif.ClassRef.c65_types_distinct`: Classical.choice, Quot.sound, propext
* `Verif.ClassRef.c65_root`: Classical.choice, Quot.sound, propext
* `Verif.ClassRef.c65_untouched`: Classical.choice, Quot.sound, propext
* `Verif.ClassRef.c65_flags_partial`: Classical.choice, Quot.sound, propext
* `Verif.ClassRef.c65_links_partial`: Classical.choice, Quot.sound, propext
* `Verif.ClassRef.c65_owners_partial`: Classical.choice, Quot.sound, propext
* `Verif.ClassRef.c65_unlink`: Classical.choice, Quot.sound, propext
* `Verif.ClassRef.c65_class`: propext
* `Verif.ClassRef.c65_reference`: Classical.choice, Quot.sound, propext
* `Verif.ClassRef.c65_found`: Classical.choice, Quot.sound, propext
* `Verif.ClassRef.c65_plain`: Classical.choice, Quot.sound, propext
* `Verif.ClassRef.c65_unknown_type`: propext
* `Verif.ClassRef.c65_no_panic_refuted`: propext
* `Verif.ClassRef.c65_order_refuted`: propext
* `Verif.ClassRef.c65_other_name_refuted`: propext
* `Verif.ClassRef.c65_use_refuted`: propext
* `Verif.ClassRef.c65_never_ends`: Classical.choice, Quot.sound, propext

## C66

* `Verif.GoJson.c66_add_request`: Classical.choice, Quot.sound, propext
* `Verif.GoJson.c66_update_request`: Classical.choice, Quot.sound, propext
* `Verif.GoJson.c66_search_request`: Classical.choice, Quot.sound, propext
* `Verif.GoJson.c66_post_request`: Classical.choice, Quot.sound, propext
* `Verif.GoJson.c66_no_write`: Classical.choice, Quot.sound, propext
* `Verif.GoJson.c66_no_body`: Classical.choice, Quot.sound, propext
* `Verif.GoJson.c66_action_request`: Classical.choice, Quot.sound, propext
* `Verif.GoJson.c66_body_response`: Classical.choice, Quot.sound, propext
* `Verif.GoJson.c66_post_response`: Classical.choice, Quot.sound, propext
* `Verif.GoJson.c66_delete_response`: Classical.choice, Quot.sound, propext
* `Verif.GoJson.c66_action_response`: Classical.choice, Quot.sound, propext
* `Verif.GoJson.c66_page_response`: Classical.choice, Quot.sound, propext
* `Verif.GoJson.c66_round_trip`: Classical.choice, Quot.sound, propext
* `Verif.GoJson.c66_nil_body_refuted`: Classical.choice, Quot.sound, propext
* `Verif.GoJson.c66_metadata`: Classical.choice, Quot.sound, propext
* `Verif.GoJson.c66_metadata_round_trip`: Quot.sound, propext

## C67

* `Verif.GoJson.c67_fields_partial`: Classical.choice, Quot.sound, propext
* `Verif.GoJson.c67_status_refuted`: propext

## C68

* `Verif.c68_entries_unique`: Classical.choice, Quot.sound, propext
* `Verif.c68_document`: Classical.choice, Quot.sound, propext
* `Verif.c68_tokens_determine`: Classical.choice, Quot.sound, propext
* `Verif.c68_written_iff`: Classical.choice, Quot.sound, propext
* `Verif.c68_errors`: Classical.choice, Quot.sound, propext
* `Verif.c68_failed`: Classical.choice, Quot.sound, propext
* `Verif.c68_types`: Quot.sound, propext
* `Verif.c68_segments`: Classical.choice, Quot.sound, propext

## C69

* `Verif.Language.c69_unambiguous`: Quot.sound, propext
* `Verif.Language.c69_accepts`: Classical.choice, Quot.sound, propext
* `Verif.Language.c69_parse_iff`: Quot.sound, propext

## C70

* `Verif.Language.c70_step`: Quot.sound, propext
* `Verif.Language.c70_step_unique`: Quot.sound, propext
* `Verif.Language.c70_scan`: Quot.sound, propext

## C71

* `Verif.Language.c71_written_iff`: Classical.choice, Quot.sound, propext
* `Verif.Language.c71_layout`: Classical.choice, Quot.sound, propext

## C72

* `Verif.Language.c72_everything_refuted`: Classical.choice, Quot.sound, propext
* `Verif.Language.c72_everything_partial`: Classical.choice, Quot.sound, propext
* `Verif.Language.c72_ignored`: Classical.choice, Quot.sound, propext

## C73

* `Verif.Language.c73_trees_iff`: Classical.choice, Quot.sound, propext
* `Verif.Language.c73_names`: Classical.choice, Quot.sound, propext
* `Verif.Language.c73_keyword_names_refuted`: Classical.choice, Quot.sound, propext

## C74

* `Verif.Language.c74_string_iff`: Classical.choice, Quot.sound, propext
* `Verif.Language.c74_literal_iff`: Classical.choice, Quot.sound, propext
* `Verif.Language.c74_literal_error`: Classical.choice, Quot.sound, propext
* `Verif.Language.c74_plain`: propext
* `Verif.Language.c74_every_string`: Quot.sound, propext
* `Verif.Language.c74_go_strings_refuted`: Classical.choice, Quot.sound, propext
* `Verif.Language.c74_go_strings_partial`: Classical.choice, Quot.sound, propext
* `Verif.Language.c74_annotation`: propext
* `Verif.Language.c74_annotation_errors`: Classical.choice, Quot.sound, propext

## C75

* `Verif.Language.c75_comments`: Quot.sound, propext
* `Verif.Language.c75_read`: Classical.choice, Quot.sound, propext
* `Verif.Language.c75_errors`: Classical.choice, Quot.sound, propext
* `Verif.Language.c75_accepted_iff`: Classical.choice, Quot.sound, propext
* `Verif.Language.c75_same_line_refuted`: Classical.choice, Quot.sound, propext

## C76

* `Verif.c76_model_partial`: Classical.choice, Quot.sound, propext
* `Verif.c76_resource_names_partial`: Classical.choice, Quot.sound, propext
* `Verif.c76_read_partial`: Classical.choice, Quot.sound, propext
* `Verif.c76_directories_partial`: Classical.choice, Quot.sound, propext

## C77

* `Verif.Language.c77_read_partial`: Classical.choice, Quot.sound, propext
* `Verif.Language.c77_returned`: Classical.choice, Quot.sound, propext
* `Verif.Language.c77_no_reporter`: propext

## C78

* `Verif.GoRef.c78_field_iff`: Quot.sound, propext
* `Verif.GoRef.c78_getter`: propext
* `Verif.GoRef.c78_import`: propext
* `Verif.GoRef.c78_reported`: propext
* `Verif.GoRef.c78_builder_partial`: Quot.sound, propext
* `Verif.GoRef.c78_setter_type`: propext
* `Verif.GoRef.c78_builder_here_iff`: Quot.sound, propext
* `Verif.GoRef.c78_builder_version_iff`: Quot.sound, propext
* `Verif.GoRef.c78_parameter_partial`: Quot.sound, propext
* `Verif.GoRef.c78_request_iff`: Quot.sound, propext
* `Verif.GoRef.c78_response_iff`: Quot.sound, propext
* `Verif.GoRef.c78_zero`: propext
* `Verif.GoRef.c78_names`: propext
* `Verif.GoRef.c78_names_lists`: propext
* `Verif.GoRef.c78_names_errors`: Quot.sound, propext
* `Verif.GoRef.c78_list_packages`: propext
* `Verif.GoRef.c78_value_errors`: propext
* `Verif.GoRef.c78_assigned_iff`: Quot.sound, propext
* `Verif.GoRef.c78_enum_refuted`: propext
* `Verif.GoRef.c78_version_refuted`: propext
* `Verif.GoRef.c78_selector_refuted`: propext
* `Verif.GoRef.c78_items_refuted`: propext
* `Verif.GoRef.c78_parameter_refuted`: propext

## C79

* `Verif.Files.c79_success_iff`: Classical.choice, Quot.sound, propext
* `Verif.Files.c79_written`: Classical.choice, Quot.sound, propext
* `Verif.Files.c79_failure`: Quot.sound, propext
* `Verif.Files.c79_stops`: Quot.sound, propext
* `Verif.Files.c79_order`: Classical.choice, Quot.sound, propext
* `Verif.Files.c79_distinct_iff`: Quot.sound, propext
* `Verif.Files.c79_spec_file_iff`: Quot.sound, propext
* `Verif.Files.c79_path`: none
* `Verif.Files.c79_spec_failure`: Classical.choice, Quot.sound, propext
* `Verif.Files.c79_missing_spec`: Quot.sound, propext
* `Verif.Files.c79_each_file_partial`: Classical.choice, Quot.sound, propext
* `Verif.Files.c79_go_command`: Quot.sound, propext
* `Verif.Files.c79_openapi_command`: Quot.sound, propext
* `Verif.Files.c79_check_command`: Quot.sound, propext
* `Verif.Files.c79_twins_refuted`: propext
* `Verif.Files.c79_metadata_refuted`: propext

## C80

* `Verif.Report.c80_streams`: propext
* `Verif.Report.c80_errors`: Quot.sound, propext
* `Verif.Report.c80_no_errors_iff`: Classical.choice, Quot.sound, propext
* `Verif.Report.c80_returned`: propext
* `Verif.Report.c80_format`: Quot.sound, propext
* `Verif.Report.c80_extra`: Quot.sound, propext
* `Verif.Report.c80_missing`: propext
* `Verif.Report.c80_qualified`: propext
* `Verif.Report.c80_distinct_iff`: Quot.sound, propext
* `Verif.Report.c80_types_refuted`: propext
* `Verif.Report.c80_types_collide_refuted`: propext
* `Verif.c80_add_reports_iff`: Classical.choice, Quot.sound, propext
* `Verif.c80_get_reports_iff`: Classical.choice, Quot.sound, propext
* `Verif.c80_list_reports_iff`: Classical.choice, Quot.sound, propext
* `Verif.c80_post_reports_iff`: Classical.choice, Quot.sound, propext
* `Verif.c80_search_reports_iff`: Classical.choice, Quot.sound, propext
* `Verif.c80_update_reports_iff`: Classical.choice, Quot.sound, propext
* `Verif.c80_delete_reports_iff_partial`: Classical.choice, Quot.sound, propext
* `Verif.c80_delete_refuted`: propext
* `Verif.c80_action_reports_iff`: Classical.choice, Quot.sound, propext

## C81

* `Verif.Docs.c81_no_errors`: Classical.choice, Quot.sound, propext
* `Verif.Docs.c81_line_iff`: Quot.sound, propext
* `Verif.Docs.c81_resource`: Classical.choice, Quot.sound, propext
* `Verif.Docs.c81_enum`: Classical.choice, Quot.sound, propext
* `Verif.Docs.c81_struct`: Classical.choice, Quot.sound, propext
* `Verif.Docs.c81_index`: Classical.choice, Quot.sound, propext
* `Verif.Docs.c81_verbatim_iff`: Quot.sound, propext
* `Verif.Docs.c81_indentation_refuted`: propext
* `Verif.Docs.c81_long_line`: Quot.sound, propext
* `Verif.Docs.c81_long_line_refuted`: Classical.choice, Quot.sound, propext
* `Verif.Docs.c81_types_refuted`: Quot.sound, propext
* `Verif.Docs.c81_class_refuted`: propext
* `Verif.Docs.c81_row_refuted`: propext
* `Verif.Docs.c81_success_iff`: Classical.choice, Quot.sound, propext
* `Verif.Docs.c81_written`: Classical.choice, Quot.sound, propext
* `Verif.Docs.c81_failure`: Classical.choice, Quot.sound, propext
* `Verif.Docs.c81_exit_iff`: Classical.choice, Quot.sound, propext
* `Verif.Docs.c81_command`: Quot.sound, propext
* `Verif.Docs.c81_trim_iff`: Quot.sound, propext
* `Verif.Docs.c81_functions`: propext
* `Verif.Docs.c81_conditions`: propext
* `Verif.Docs.c81_classes`: propext
* `Verif.Docs.c81_trim_markers`: Quot.sound, propext
* `Verif.Docs.c81_range`: Quot.sound, propext
* `Verif.Docs.c81_reported`: none

## C82

* `Verif.GoTime.c82_calendar`: Classical.choice, Quot.sound, propext
* `Verif.GoTime.c82_days`: Classical.choice, Quot.sound, propext
* `Verif.GoTime.c82_utc`: Classical.choice, Quot.sound, propext
* `Verif.GoTime.c82_read_iff`: Classical.choice, Quot.sound, propext
* `Verif.GoTime.c82_read_back`: Classical.choice, Quot.sound, propext
* `Verif.GoTime.c82_round_trip_iff`: Classical.choice, Quot.sound, propext
* `Verif.GoTime.c82_timestamp_iff`: Classical.choice, Quot.sound, propext
* `Verif.GoTime.c82_query_iff`: Classical.choice, Quot.sound, propext
* `Verif.GoTime.c82_distinct`: Classical.choice, Quot.sound, propext
* `Verif.GoTime.c82_fraction_refuted`: Quot.sound, propext
* `Verif.GoTime.c82_year_refuted`: propext
* `Verif.GoTime.c82_offset_refuted`: Quot.sound, propext
* `Verif.GoTime.c82_document`: Classical.choice, Quot.sound, propext
* `Verif.GoTime.c82_document_seconds`: Classical.choice, Quot.sound, propext
* `Verif.GoTime.c82_parameter`: Classical.choice, Quot.sound, propext
* `Verif.GoTime.c82_sendable`: Classical.choice, Quot.sound, propext
* `Verif.GoTime.c82_error`: Classical.choice, Quot.sound, propext
* `Verif.GoTime.c82_error_round_trip`: Classical.choice, Quot.sound, propext
* `Verif.GoTime.c82_zero`: propext

## C83

* `Verif.Decls.c83_declared`: Classical.choice, Quot.sound, propext
* `Verif.Decls.c83_once_iff_partial`: Classical.choice, Quot.sound, propext
* `Verif.Decls.c83_metadata_refuted`: propext
* `Verif.Decls.c83_derived_refuted`: propext
* `Verif.Decls.c83_constant_refuted`: propext
* `Verif.Decls.c83_client_refuted`: propext
* `Verif.Decls.c83_message_refuted`: propext
* `Verif.Decls.c83_message_fine`: propext
* `Verif.Decls.c83_annotation_refuted`: propext
* `Verif.Decls.c83_struct_uses`: Quot.sound, propext
* `Verif.Decls.c83_list_uses`: Quot.sound, propext
* `Verif.Decls.c83_map_uses`: propext
* `Verif.Decls.c83_scalar_uses`: propext
* `Verif.Decls.c83_uses_declared_partial`: Classical.choice, Quot.sound, propext
* `Verif.Decls.c83_list_of_lists_refuted`: propext
* `Verif.Decls.c83_client_uses`: Quot.sound, propext
* `Verif.Decls.c83_client_declared`: Classical.choice, Quot.sound, propext

## C84

* `Verif.Members.c84_object_iff_partial`: Quot.sound, propext
* `Verif.Members.c84_builder_iff_partial`: Quot.sound, propext
* `Verif.Members.c84_object_refuted`: propext
* `Verif.Members.c84_lists`: none
* `Verif.Members.c84_fixed_members`: Classical.choice, Quot.sound, propext
* `Verif.Members.c84_client_iff_partial`: Classical.choice, Quot.sound, propext
* `Verif.Members.c84_client_refuted`: propext
* `Verif.Members.c84_service_iff_partial`: Quot.sound, propext
* `Verif.Members.c84_request_iff_partial`: Quot.sound, propext
* `Verif.Members.c84_response_iff_partial`: Quot.sound, propext
* `Verif.Members.c84_poll_request_iff_partial`: Quot.sound, propext
* `Verif.Members.c84_poll_response_iff_partial`: Quot.sound, propext
* `Verif.Members.c84_poll_refuted`: propext

## C85

* `Verif.Outcome.c85_type_file`: Quot.sound, propext
* `Verif.Outcome.c85_enum_file`: propext
* `Verif.Outcome.c85_builder_file`: Quot.sound, propext
* `Verif.Outcome.c85_json_file`: Quot.sound, propext
* `Verif.Outcome.c85_list_files`: Quot.sound, propext
* `Verif.Outcome.c85_types_first`: Quot.sound, propext
* `Verif.Outcome.c85_method_json`: Classical.choice, Quot.sound, propext
* `Verif.Outcome.c85_client_file`: Classical.choice, Quot.sound, propext
* `Verif.Outcome.c85_no_crash`: Classical.choice, Quot.sound, propext
* `Verif.Outcome.c85_errors_file`: Quot.sound, propext
* `Verif.Outcome.c85_wanted`: Classical.choice, Quot.sound, propext
* `Verif.Outcome.c85_other_files`: Quot.sound, propext
* `Verif.Outcome.c85_success_iff`: Classical.choice, Quot.sound, propext
* `Verif.Outcome.c85_object_methods`: Classical.choice, Quot.sound, propext
* `Verif.Outcome.c85_collection_methods`: Classical.choice, Quot.sound, propext
* `Verif.Outcome.c85_update_methods`: Classical.choice, Quot.sound, propext
* `Verif.Outcome.c85_accepted_refuted`: Classical.choice, Quot.sound, propext
* `Verif.Outcome.c85_large_class_refuted`: Classical.choice, Quot.sound, propext
* `Verif.Outcome.c85_items_refuted`: Classical.choice, Quot.sound, propext

## C86

* `Verif.Whole.c86_from_reader`: Classical.choice, Quot.sound, propext
* `Verif.Whole.c86_rejected`: Classical.choice, Quot.sound, propext
* `Verif.Whole.c86_generate_iff`: Classical.choice, Quot.sound, propext
* `Verif.Whole.c86_files`: Classical.choice, Quot.sound, propext
* `Verif.Whole.c86_no_crash`: Classical.choice, Quot.sound, propext
* `Verif.Whole.c86_expressible_iff_partial`: Classical.choice, Quot.sound, propext
* `Verif.Whole.c86_usable_partial`: Classical.choice, Quot.sound, propext
* `Verif.Whole.c86_sources_partial`: Classical.choice, Quot.sound, propext
* `Verif.Whole.c86_read_not_generated_refuted`: Classical.choice, Quot.sound, propext
* `Verif.Whole.c86_two_errors_refuted`: Classical.choice, Quot.sound, propext

## C87

* `Verif.Accept.c87_read_partial`: Classical.choice, Quot.sound, propext
* `Verif.Accept.c87_checked_iff_partial`: Classical.choice, Quot.sound, propext
* `Verif.Accept.c87_generate_iff_partial`: Classical.choice, Quot.sound, propext

## C88

* `Verif.Whole.c88_unique`: Classical.choice, Quot.sound, propext
* `Verif.Whole.c88_exists_iff`: Classical.choice, Quot.sound, propext
* `Verif.Whole.c88_types_partial`: Classical.choice, Quot.sound, propext
* `Verif.Whole.c88_fields_partial`: Classical.choice, Quot.sound, propext
* `Verif.Whole.c88_parameters_partial`: Classical.choice, Quot.sound, propext
* `Verif.Whole.c88_spelling_refuted`: Classical.choice, Quot.sound, propext

## C89

* `Verif.TypesCode.c89_enum`: Classical.choice, Quot.sound, propext
* `Verif.TypesCode.c89_written_iff`: Classical.choice, Quot.sound, propext
* `Verif.TypesCode.c89_struct_partial`: Classical.choice, Quot.sound, propext
* `Verif.TypesCode.c89_errors`: Quot.sound, propext
* `Verif.TypesCode.c89_imports`: Classical.choice, Quot.sound, propext
* `Verif.TypesCode.c89_metadata`: Classical.choice, Quot.sound, propext
* `Verif.TypesCode.c89_balanced`: Quot.sound, propext
* `Verif.TypesCode.c89_bitmap`: none

## C90

* `Verif.TypesRun.c90_class`: Classical.choice, Quot.sound, propext
* `Verif.TypesRun.c90_empty`: Classical.choice, Quot.sound, propext
* `Verif.TypesRun.c90_getters`: Classical.choice, Quot.sound, propext
* `Verif.TypesRun.c90_class_list`: Classical.choice, Quot.sound, propext
* `Verif.TypesRun.c90_list`: Classical.choice, Quot.sound, propext
* `Verif.TypesRun.c90_setters`: Classical.choice, Quot.sound, propext
* `Verif.TypesRun.c90_slice`: Classical.choice, Quot.sound, propext
* `Verif.TypesRun.c90_loops`: Classical.choice, Quot.sound, propext
* `Verif.TypesRun.c90_metadata`: Classical.choice, Quot.sound, propext

## C91

* `Verif.BuildersCode.c91_written_iff`: Classical.choice, Quot.sound, propext
* `Verif.BuildersCode.c91_builder_partial`: Classical.choice, Quot.sound, propext
* `Verif.BuildersCode.c91_list`: Classical.choice, Quot.sound, propext
* `Verif.BuildersCode.c91_errors`: Quot.sound, propext
* `Verif.BuildersCode.c91_imports`: Classical.choice, Quot.sound, propext

## C92

* `Verif.BuildersRun.c92_new`: Classical.choice, Quot.sound, propext
* `Verif.BuildersRun.c92_newList`: Quot.sound, propext
* `Verif.BuildersRun.c92_link`: Classical.choice, Quot.sound, propext
* `Verif.BuildersRun.c92_id`: Classical.choice, Quot.sound, propext
* `Verif.BuildersRun.c92_href`: Classical.choice, Quot.sound, propext
* `Verif.BuildersRun.c92_set`: Classical.choice, Quot.sound, propext
* `Verif.BuildersRun.c92_items`: Classical.choice, Quot.sound, propext
* `Verif.BuildersRun.c92_empty`: Classical.choice, Quot.sound, propext
* `Verif.BuildersRun.c92_emptyList`: Classical.choice, Quot.sound, propext
* `Verif.BuildersRun.c92_build`: Classical.choice, Quot.sound, propext
* `Verif.BuildersRun.c92_buildList`: Classical.choice, Quot.sound, propext

## C93

* `Verif.BuildersRun.c93_copy`: Classical.choice, Quot.sound, propext
* `Verif.BuildersRun.c93_copyList`: Classical.choice, Quot.sound, propext
* `Verif.BuildersRun.c93_clone`: Classical.choice, Quot.sound, propext

## C94

* `Verif.ModelRun.c94_loaded`: Classical.choice, Quot.sound, propext
* `Verif.ModelRun.c94_program`: Classical.choice, Quot.sound, propext
* `Verif.ModelRun.c94_whole`: Classical.choice, Quot.sound, propext
* `Verif.ModelRun.c94_zeros`: Classical.choice, Quot.sound, propext
* `Verif.ModelRun.c94_getters`: Classical.choice, Quot.sound, propext
* `Verif.ModelRun.c94_clone`: Classical.choice, Quot.sound, propext
* `Verif.ModelRun.c94_schema`: Classical.choice, Quot.sound, propext

## C95

* `Verif.JsonCode.c95_written_iff`: Classical.choice, Quot.sound, propext
* `Verif.JsonCode.c95_list_written_iff`: Classical.choice, Quot.sound, propext
* `Verif.JsonCode.c95_struct_partial`: Classical.choice, Quot.sound, propext
* `Verif.JsonCode.c95_list`: Classical.choice, Quot.sound, propext
* `Verif.JsonCode.c95_errors`: Quot.sound, propext
* `Verif.JsonCode.c95_imports`: Classical.choice, Quot.sound, propext
* `Verif.JsonCode.c95_list_imports`: Classical.choice, Quot.sound, propext
* `Verif.JsonCode.c95_object`: Quot.sound, propext

## C96

* `Verif.JsonRun.c96_write`: Classical.choice, Quot.sound, propext
* `Verif.JsonRun.c96_write_list`: Classical.choice, Quot.sound, propext
* `Verif.JsonRun.c96_marshal`: Classical.choice, Quot.sound, propext
* `Verif.JsonRun.c96_marshal_list`: Classical.choice, Quot.sound, propext
* `Verif.JsonRun.c96_document`: Classical.choice, Quot.sound, propext

## C97

* `Verif.JsonRun.c97_read`: Classical.choice, Quot.sound, propext
* `Verif.JsonRun.c97_read_list`: Classical.choice, Quot.sound, propext
* `Verif.JsonRun.c97_read_error`: Classical.choice, Quot.sound, propext
* `Verif.JsonRun.c97_unmarshal`: Classical.choice, Quot.sound, propext
* `Verif.JsonRun.c97_unmarshal_list`: Classical.choice, Quot.sound, propext
* `Verif.JsonRun.c97_source`: Classical.choice, Quot.sound, propext
* `Verif.JsonRun.c97_round_trip`: Classical.choice, Quot.sound, propext

## C98

* `Verif.ModelRun.c98_loaded`: Classical.choice, Quot.sound, propext
* `Verif.ModelRun.c98_program`: Classical.choice, Quot.sound, propext
* `Verif.ModelRun.c98_whole`: Classical.choice, Quot.sound, propext
* `Verif.ModelRun.c98_proper`: Classical.choice, Quot.sound, propext
* `Verif.ModelRun.c98_names`: propext
* `Verif.ModelRun.c98_marshal`: Classical.choice, Quot.sound, propext
* `Verif.ModelRun.c98_unmarshal`: Classical.choice, Quot.sound, propext
* `Verif.ModelRun.c98_marshal_list`: Classical.choice, Quot.sound, propext
* `Verif.ModelRun.c98_unmarshal_list`: Classical.choice, Quot.sound, propext
* `Verif.ModelRun.c98_round_trip`: Classical.choice, Quot.sound, propext

## C99

* `Verif.MethodsCode.c99_written_iff`: Classical.choice, Quot.sound, propext
* `Verif.MethodsCode.c99_code`: Classical.choice, Quot.sound, propext
* `Verif.MethodsCode.c99_errors`: Classical.choice, Quot.sound, propext
* `Verif.MethodsCode.c99_imports`: Classical.choice, Quot.sound, propext
* `Verif.MethodsCode.c99_accepted`: Classical.choice, Quot.sound, propext
