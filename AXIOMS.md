# Axioms of the theorems in MANIFEST.json

Generated by tools/axioms.py from `#print axioms`. All names are in the namespace Pyopenapi.

## none

`C49_reference_violation`, `C61_same_name_violation`, `Yaml.C60_none`, `Yaml.C60_collision_violation`

## propext

`C01_jp_roundtrip_nobase_exception`, `C02_jp_compose_incremental`, `C04_scope_roundtrip_fails`, `C04_scope_compose_absent`, `C05_suffix_not_token_aligned`, `C14_version_detection`, `C15_malformed_raises`, `C37_older_shorter_pointer_shadows`, `C38_refuses_remove_all`, `C38_prefix_confusion`, `packageVersions_ordered`, `C25_reach_is_raw`, `pathTo_eq`, `C26_empty_key_lost`, `C28_other_class_raises`, `C28_attach_child`, `Heap.C31_stale_violation`, `Heap.C31_assign_violation`, `C07_text`, `C07_params_violation`, `C07_relative_violation`, `C08_none`, `C08_no_base`, `C08_fragment`, `C08_absolute`, `C08_root_double_slash`, `C08_absolute_path_appended`, `C10_rewritten_violation`, `C11_text`, `C11_slashes_violation`, `C12_extension_violation`, `C68_listing_built_twice`, `C45_allowed`, `C45_tsv_violation`, `C45_form_violation`, `C61_distinct`, `C63_two_hosts_violation`, `C63_two_schemes_violation`, `C63_two_ports_violation`, `PathItem.C59_fields_violation`, `Getter.C83_folder_violation`, `Getter.C83_extension_violation`, `Getter.C85_error`, `Meta.C91_attached_violation`, `C92_empty`, `C92_windows`, `C92_semicolon_violation`, `Main.C98_flow_violation`, `Parent.C100_merge_violation`, `Parent.C100_put_violation`, `Access.C101_extend`, `C104_failed_partial`, `C104_unsupported`

## propext, Quot.sound

`C04_scope_roundtrip`, `C05_exact`, `C05_unique_suffix`, `C05_ambiguous`, `C05_tuple`, `C06_deref_terminates`, `C06_deref_ok_iff`, `C06_deref_cycle_iff`, `C06_deref_no_other_error`, `C35_set_is_last_write`, `run_refines`, `C36_isolation`, `C36_isolation_history`, `C37_segment_violation`, `C38_get_under_result`, `C38_get_under_removes`, `C38_unknown_url`, `C38_known_url`, `C40_relocate_unsupported`, `C41_unmatched`, `C41_order_independent`, `C41_longest_route`, `C41_not_segment_aligned`, `C41_empty_table_hides`, `C42_failed_update_visible`, `C20_field_write`, `C21_accepts_non_objects`, `C25_tokens_swallowed`, `C25_declared_first`, `C25_without_python_names`, `C25_nothing_raises`, `C25_method_violation`, `C25_renamed_violation`, `C28_merge`, `C28_keeps_and_fills`, `C28_idempotent`, `Heap.C31_current_partial`, `Heap.C31_attach_merge`, `Heap.C31_flat_container`, `C32_sound`, `C34_register_ok`, `C34_no_root`, `C34_no_dispatcher`, `C07_derelativise_partial`, `C08_relative`, `C11_join`, `C12_folder`, `C13_loadable`, `C13_base_decides`, `C13_path_decides`, `C13_idempotent`, `C19_nested_violation`, `C43_fetched_once`, `C43_answered_from_cache`, `C43_failure_forgotten`, `C43_empty_asked_again`, `C16_unsupported`, `C66_cached`, `C66_defaults`, `C68_loaded_is_cached_partial`, `C68_listing_violation`, `C69_original`, `C46_every_depth`, `C45_raises`, `C45_table_partial`, `C52_violation`, `C53_summary`, `PathItem.C59_terminates`, `PathItem.C59_fuel`, `PathItem.C59_first`, `PathItem.C59_original`, `PathItem.C59_succeeds`, `PathItem.C59_unresolved`, `Yaml.C60_strings`, `Yaml.C60_kept`, `Yaml.C60_json`, `Yaml.C60_twice`, `Yaml.C78_strings`, `Yaml.C78_other_order`, `Getter.C83_file_partial`, `Getter.C83_nothing_partial`, `Getter.C83_drive_partial`, `Getter.C83_yml_violation`, `Getter.C84_in_order`, `Getter.C84_dict_getter`, `Getter.C84_order_violation`, `Getter.C85_given`, `Getter.C85_default_partial`, `Getter.C85_local`, `Getter.C85_local_text`, `Getter.C85_default_violation`, `Meta.C91_declared`, `Meta.C91_tables`, `C92_file`, `C92_refused`, `Attr.C94_read`, `Attr.C94_refused`, `Attr.C94_unset`, `Attr.C94_final_violation`, `C98_resources`, `Access.C101_put`, `Scanner.C102_lineage`, `Scanner.C102_no_root`, `C103_empty`, `C104_failed_dummy`, `C104_one_entry`, `C104_removed_violation`, `C105_refused`, `App.C108_version`, `App.C108_empty`, `App.C108_spelling_violation`

## propext, Classical.choice, Quot.sound

`C01_jp_roundtrip_base`, `C01_jp_roundtrip_nobase`, `C02_jp_compose_injective`, `C02_jp_compose_slashes`, `C03_jp_split_is_rfc6901`, `C03_jp_split_total`, `C03_jp_compose_is_rfc6901`, `C05_none`, `C15_supported_versions_sorted`, `C15_any_version`, `C15_refused`, `C35_read_your_writes`, `C37_segment_partial`, `C39_newest`, `C39_nothing`, `C39_error`, `C39_answers`, `C39_unknown_version`, `C40_relocate_composes`, `C40_relocate_identity`, `C42_last_route_wins`, `C42_relocate_uses_routes`, `C42_unsupported_raises`, `C20_field_contract`, `C21_build_iff_shaped`, `C21_path_irrelevant`, `C22_dump_lossless`, `C22_dump_lossless_pkg`, `C22_dump_child`, `C22_dump_field`, `C22_dump_declared`, `C23_reload`, `C23_dump_load_fixpoint`, `C23_required_empty_lost`, `C24_object_kept_partial`, `C24_false_dropped`, `C24_true_raises`, `C25_resolve`, `C25_resolve_field`, `C25_string_element`, `C25_undeclared_raises`, `C25_signed_index`, `C25_index_violation`, `C25_no_index`, `C25_index_example`, `C25_python_example`, `C26_path`, `build_path`, `C27_override_partial`, `C27_many_partial`, `C27_many_example`, `C27_escaped_token_lost`, `C27_empty_override_raises`, `C27_missing_place`, `C27_empty_pointer_raises`, `C29_reflexive`, `C29_never_different`, `C29_reflexive_pkg`, `C29_missing_field_raises`, `C30_compare_iff`, `C30_same_partial`, `C30_strings_violation`, `C30_list_prefix_violation`, `C32_visits_partial`, `C32_loaded_partial`, `C32_lost_violation`, `C33_path_partial`, `C33_loaded_partial`, `C33_nested_violation`, `C34_scan`, `C09_idempotent`, `C10_split`, `C10_fragment`, `C12_file_partial`, `C17_never_different`, `C17_reflexive`, `C17_raises`, `C17_mixed_raises`, `C18_nothing_reported`, `C18_string_lists`, `C18_bool_violation`, `C19_keys_ignored_partial`, `C44_walk_iff`, `C44_pointer`, `C44_impossible`, `C44_resolve`, `C44_resolve_cached`, `C44_empty`, `C16_plan`, `C16_newer`, `C67_truthful_partial`, `C67_violation`, `C70_migrated_is_found`, `C46_schema_kept`, `toSchema_built`, `C47_reference`, `C47_file`, `C71_schema`, `C71_schema_loads`, `C71_document`, `C71_document_iff`, `C71_scopes_violation`, `C71_document_violation`, `C45_parameter_partial`, `C45_header`, `C45_default_violation`, `C48_partition`, `C49_forms`, `C49_more`, `C49_split_violation`, `C50_second_body`, `C50_never`, `C51_body`, `C51_part_types`, `C52_own_body_partial`, `C52_independent_partial`, `C52_shared_violation`, `C52_clash_violation`, `C52_converted`, `C52_example_violation`, `C53_document`, `C53_paths`, `C53_path_item`, `C53_extension`, `C53_converted`, `C53_total`, `C57_response`, `C57_no_file_partial`, `C57_file_violation`, `C56_server`, `C58_violation`, `C58_empty_partial`, `C72_scheme_partial`, `C72_basic_violation`, `C72_flow_violation`, `C72_scopes_violation`, `C72_no_flow`, `C73_servers_partial`, `C73_host_violation`, `Main.C73_elsewhere_violation`, `C54_definitions`, `C54_responses`, `C54_security`, `C54_response_schema_violation`, `C55_body_partial`, `C55_plain_partial`, `C55_prefix_violation`, `C55_escape_violation`, `C55_empty_violation`, `C61_registered`, `C61_reference`, `C62_subtypes`, `C62_only_parents`, `C62_own`, `C63_site`, `C63_round`, `C63_noSite`, `C63_no_operation_violation`, `C64_schema_bounds`, `C64_parameter_bounds_partial`, `C64_parameter_rejected`, `C64_schema_rejected`, `C64_bound_raises`, `C64_repeated_violation`, `C64_zero_violation`, `C65_repeated`, `C65_rejected`, `C74_resolves_partial`, `C74_slash_violation`, `C75_document`, `C75_object`, `C76_defined_partial`, `C76_only`, `C76_slash_violation`, `C77_site`, `C77_noSite`, `C77_no_models_violation`, `C77_no_parameters_violation`, `Yaml.C60_numbers`, `Yaml.C78_number_violation`, `Refs.C79_resolved`, `Refs.C79_succeeds`, `Refs.C79_root_violation`, `Refs.C80_resolved_partial`, `Refs.C80_succeeds`, `Refs.C81_dangling`, `Refs.C81_dangling3`, `Refs.C81_error_violation`, `Refs.C82_examples_violation`, `Getter.C83_url`, `Main.C86_two`, `Main.C86_two_paths`, `Main.C86_native_partial`, `Main.C86_native_paths_partial`, `Main.C86_up`, `Main.C86_up_paths`, `Main.C86_up_example`, `Main.C87_alone_partial`, `Main.C87_asked_partial`, `Main.C87_example`, `Main.C87_kinds_violation`, `Main.C88_pieces`, `C89_fields_partial`, `C89_fields_violation`, `C90_renamed_partial`, `C90_client_credentials_violation`, `C92_scheme`, `C93_body`, `C93_plain_partial`, `C93_shift_violation`, `Main.C95_reuse`, `Main.C95_all`, `Main.C95_all_example`, `Main.C95_part`, `Main.C95_moved_violation`, `Main.C96_documents_partial`, `Main.C96_example`, `Main.Native.C97_pieces_partial`, `Main.C98_two`, `Main.C99_three`, `Main.C99_server_violation`, `Parent.C100_parent_partial`, `Parent.C100_loads`, `Parent.C100_up_partial`, `Parent.C100_history`, `Parent.C100_empty_violation`, `Access.C101_map`, `Access.C101_list`, `Access.C101_equal`, `Access.C101_equal_self`, `Access.C101_iterate_violation`, `Scanner.C102_scan`, `Scanner.C102_times`, `Scanner.C102_package`, `Scanner.C102_header_twice`, `C103_continues`, `C103_loads`, `C103_refuses`, `C105_failed`, `C106_moved_partial`, `Main.C106_media_violation`, `C107_plain_partial`, `Main.C107_document_partial`, `Main.C107_document_example`, `C107_body_violation`, `C107_form_violation`, `App.C108_root`, `C109_default_partial`, `C109_messages_violation`, `C110_description_partial`, `C110_examples_violation`, `C110_file_violation`, `C111_one_partial`, `C111_schemes_violation`, `C111_host_violation`, `Main.C112_served`, `Main.C112_reads`, `Main.C112_reads_native`, `Main.C112_reads_upgraded`, `Main.C113_converted`, `Main.C113_native_partial`, `Main.C113_two`, `Main.C113_native_example`, `Main.C113_two_example`, `Main.C113_converted_example`, `C114_place_partial`, `C114_pointer_partial`, `C114_lost_violation`, `C114_example`
