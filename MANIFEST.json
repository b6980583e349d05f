{
 "claims": [
  {
   "property": "C01",
   "status": "proved",
   "theorems": [
    "C01_jp_roundtrip_base",
    "C01_jp_roundtrip_nobase",
    "C01_jp_roundtrip_nobase_exception"
   ],
   "note": ""
  },
  {
   "property": "C02",
   "status": "proved",
   "theorems": [
    "C02_jp_compose_injective",
    "C02_jp_compose_incremental",
    "C02_jp_compose_slashes"
   ],
   "note": ""
  },
  {
   "property": "C03",
   "status": "proved",
   "theorems": [
    "C03_jp_split_is_rfc6901",
    "C03_jp_split_total",
    "C03_jp_compose_is_rfc6901"
   ],
   "note": ""
  },
  {
   "property": "C04",
   "status": "proved",
   "theorems": [
    "C04_scope_roundtrip",
    "C04_scope_roundtrip_fails",
    "C04_scope_compose_absent"
   ],
   "note": "The English claim itself is conditional (parts free of separator characters) and includes the failing case; both are proved."
  },
  {
   "property": "C05",
   "status": "proved",
   "theorems": [
    "C05_exact",
    "C05_unique_suffix",
    "C05_none",
    "C05_ambiguous",
    "C05_tuple",
    "C05_suffix_not_token_aligned"
   ],
   "note": ""
  },
  {
   "property": "C06",
   "status": "proved",
   "theorems": [
    "C06_deref_terminates",
    "C06_deref_ok_iff",
    "C06_deref_cycle_iff",
    "C06_deref_no_other_error"
   ],
   "note": ""
  },
  {
   "property": "C14",
   "status": "proved",
   "theorems": [
    "C14_version_detection"
   ],
   "note": ""
  },
  {
   "property": "C15",
   "status": "proved",
   "theorems": [
    "C15_supported_versions_sorted",
    "C15_malformed_raises",
    "C15_any_version",
    "C15_refused"
   ],
   "note": "C15_any_version and C15_refused cover every package name, pre-releases included."
  },
  {
   "property": "C35",
   "status": "proved",
   "theorems": [
    "C35_read_your_writes",
    "C35_set_is_last_write",
    "run_refines"
   ],
   "note": ""
  },
  {
   "property": "C36",
   "status": "proved",
   "theorems": [
    "C36_isolation",
    "C36_isolation_history"
   ],
   "note": ""
  },
  {
   "property": "C37",
   "status": "partial",
   "theorems": [
    "C37_segment_partial",
    "C37_segment_violation",
    "C37_older_shorter_pointer_shadows"
   ],
   "note": "The code violates the property (prefix matching on text); the violation is proved, and the property is proved for caches with no non-segment prefixes."
  },
  {
   "property": "C38",
   "status": "proved",
   "theorems": [
    "C38_get_under_result",
    "C38_get_under_removes",
    "C38_refuses_remove_all",
    "C38_unknown_url",
    "C38_known_url",
    "C38_prefix_confusion"
   ],
   "note": ""
  },
  {
   "property": "C39",
   "status": "proved",
   "theorems": [
    "C39_newest",
    "C39_nothing",
    "C39_error",
    "C39_answers",
    "C39_unknown_version"
   ],
   "note": ""
  },
  {
   "property": "C40",
   "status": "proved",
   "theorems": [
    "C40_relocate_composes",
    "C40_relocate_identity",
    "C40_relocate_unsupported",
    "packageVersions_ordered"
   ],
   "note": ""
  },
  {
   "property": "C41",
   "status": "proved",
   "theorems": [
    "C41_unmatched",
    "C41_order_independent",
    "C41_longest_route",
    "C41_not_segment_aligned",
    "C41_empty_table_hides"
   ],
   "note": "Termination is the totality of patchLoop (well-founded on the finite nested table). The left-over text is described for matches ending at a segment boundary; elsewhere the code loses a character (C41_not_segment_aligned)."
  },
  {
   "property": "C42",
   "status": "proved",
   "theorems": [
    "C42_last_route_wins",
    "C42_relocate_uses_routes",
    "C42_unsupported_raises",
    "C42_failed_update_visible"
   ],
   "note": "'change nothing' holds for relocation between supported versions; C42_failed_update_visible shows the residue."
  },
  {
   "property": "C20",
   "status": "proved",
   "theorems": [
    "C20_field_contract",
    "C20_field_write"
   ],
   "note": "fields of classes of any table, read through resolve/getattr; writers included"
  },
  {
   "property": "C21",
   "status": "proved",
   "theorems": [
    "C21_build_iff_shaped",
    "C21_path_irrelevant",
    "C21_accepts_non_objects"
   ],
   "note": "exact characterisation by the separate relation Shaped; deviation from the intended reading proved: values that are no JSON objects are accepted by class constructors"
  },
  {
   "property": "C22",
   "status": "proved",
   "theorems": [
    "C22_dump_lossless",
    "C22_dump_lossless_pkg",
    "C22_dump_child",
    "C22_dump_field",
    "C22_dump_declared"
   ],
   "note": "for all class tables that are well formed, and the tables of the package are (okTable_pkg)"
  },
  {
   "property": "C23",
   "status": "proved",
   "theorems": [
    "C23_reload",
    "C23_dump_load_fixpoint",
    "C23_required_empty_lost"
   ],
   "note": "holds exactly as stated when the dump can be loaded; sufficient condition Keeps; counterexample proved for an empty required child"
  },
  {
   "property": "C24",
   "status": "partial",
   "theorems": [
    "C24_object_kept_partial",
    "C24_false_dropped",
    "C24_true_raises"
   ],
   "note": "the code violates the property for both booleans (proved); the object-valued case holds"
  },
  {
   "property": "C25",
   "status": "partial",
   "theorems": [
    "C25_resolve",
    "C25_reach_is_raw",
    "C25_resolve_field",
    "C25_string_element",
    "C25_tokens_swallowed",
    "C25_undeclared_raises",
    "C25_signed_index",
    "C25_index_violation",
    "C25_no_index",
    "C25_index_example",
    "C25_declared_first",
    "C25_without_python_names",
    "C25_nothing_raises",
    "C25_method_violation",
    "C25_renamed_violation",
    "C25_python_example"
   ],
   "note": "every token path through declared children; deviations (raw string elements have no resolve, tokens below a scalar field are ignored) proved. False for undeclared tokens that are names of Python attributes: getattr finds methods, renamed attributes and variables, so a pointer like /dump resolves (proved for every object); proved without such tokens, and what is declared is found in any case. Indices are whatever int() takes: signs, white space, underscores, digits of any script (Spec/IntText, exactly those)."
  },
  {
   "property": "C26",
   "status": "proved",
   "theorems": [
    "C26_path",
    "build_path",
    "pathTo_eq",
    "C26_empty_key_lost"
   ],
   "note": "for documents loaded with a non-empty base path; without base an empty top key is lost (proved)"
  },
  {
   "property": "C27",
   "status": "partial",
   "theorems": [
    "C27_override_partial",
    "C27_many_partial",
    "C27_many_example",
    "C27_escaped_token_lost",
    "C27_empty_override_raises",
    "C27_missing_place",
    "C27_empty_pointer_raises"
   ],
   "note": "the code violates the claim for keys that need escaping after the first token, and for falsy (empty) objects; both violations proved; proved for plain tokens at any depth, for one object and (C27_many_partial) for any number of objects of which none is inside another"
  },
  {
   "property": "C28",
   "status": "proved",
   "theorems": [
    "C28_merge",
    "C28_keeps_and_fills",
    "C28_idempotent",
    "C28_other_class_raises",
    "C28_attach_child"
   ],
   "note": ""
  },
  {
   "property": "C29",
   "status": "proved",
   "theorems": [
    "C29_reflexive",
    "C29_never_different",
    "C29_reflexive_pkg",
    "C29_missing_field_raises"
   ],
   "note": "reflexive exactly when every declared field without value is readable; the missing-field deviation (raises) is proved"
  },
  {
   "property": "C30",
   "status": "partial",
   "theorems": [
    "C30_compare_iff",
    "C30_same_partial",
    "C30_strings_violation",
    "C30_list_prefix_violation"
   ],
   "note": "C30_compare_iff characterises the answer exactly; the English claim is violated for lists of strings and list prefixes (proved)"
  },
  {
   "property": "C31",
   "status": "partial",
   "theorems": [
    "Heap.C31_current_partial",
    "Heap.C31_attach_merge",
    "Heap.C31_flat_container",
    "Heap.C31_stale_violation",
    "Heap.C31_assign_violation"
   ],
   "note": "objects with identity and a cache (Model/Heap); the English claim is violated (stale caches of ancestors; item assignment does not invalidate), proved; holds for histories that do not go through the two gaps"
  },
  {
   "property": "C32",
   "status": "partial",
   "theorems": [
    "C32_visits_partial",
    "C32_loaded_partial",
    "C32_sound",
    "C32_lost_violation"
   ],
   "note": "holds for all loaded documents of 1.2 and 2.0 and 3.0 without callbacks; violated for 3.0 callbacks whose names collide after get_children joins them"
  },
  {
   "property": "C33",
   "status": "partial",
   "theorems": [
    "C33_path_partial",
    "C33_loaded_partial",
    "C33_nested_violation"
   ],
   "note": "holds for all loaded documents of 2.0; violated where a container is nested in a container (names escaped twice)"
  },
  {
   "property": "C34",
   "status": "proved",
   "theorems": [
    "C34_scan",
    "C34_register_ok",
    "C34_no_root",
    "C34_no_dispatcher"
   ],
   "note": "handlers that do not change the scanned objects; Scanner.scan with parent classes is C102"
  },
  {
   "property": "C07",
   "status": "partial",
   "theorems": [
    "C07_derelativise_partial",
    "C07_text",
    "C07_params_violation",
    "C07_relative_violation"
   ],
   "note": "proved for absolute paths whose last surviving segment has no semicolon; both exclusions are violations of the claim, proved"
  },
  {
   "property": "C08",
   "status": "partial",
   "theorems": [
    "C08_none",
    "C08_no_base",
    "C08_fragment",
    "C08_absolute",
    "C08_relative",
    "C08_root_double_slash",
    "C08_absolute_path_appended"
   ],
   "note": "all cases of the claim are proved; a base url at the root gives a double slash and an absolute-path reference is appended to the folder (both proved)"
  },
  {
   "property": "C09",
   "status": "proved",
   "theorems": [
    "C09_idempotent"
   ],
   "note": "for absolute base urls without fragment and references without tab, CR, LF"
  },
  {
   "property": "C10",
   "status": "proved",
   "theorems": [
    "C10_split",
    "C10_fragment",
    "C10_rewritten_violation"
   ],
   "note": "for urls written as urlunparse writes them (lower-case scheme, no empty query); others come back rewritten (proved)"
  },
  {
   "property": "C11",
   "status": "partial",
   "theorems": [
    "C11_text",
    "C11_join",
    "C11_slashes_violation"
   ],
   "note": "proved for at most one slash on each side; with more the code keeps them (violation proved)"
  },
  {
   "property": "C12",
   "status": "partial",
   "theorems": [
    "C12_folder",
    "C12_file_partial",
    "C12_extension_violation"
   ],
   "note": "folders that do not end in slashes and have no semicolon in their last segment"
  },
  {
   "property": "C13",
   "status": "proved",
   "theorems": [
    "C13_loadable",
    "C13_base_decides",
    "C13_path_decides",
    "C13_idempotent"
   ],
   "note": "posix"
  },
  {
   "property": "C17",
   "status": "proved",
   "theorems": [
    "C17_never_different",
    "C17_reflexive",
    "C17_raises",
    "C17_mixed_raises"
   ],
   "note": "sorted is a parameter with the facts known of it (Sorter), met by simpleSorter; besides ValueError, the TypeError of sorted on lists that cannot be sorted (null, nested) is the other exception"
  },
  {
   "property": "C18",
   "status": "proved",
   "theorems": [
    "C18_nothing_reported",
    "C18_string_lists",
    "C18_bool_violation"
   ],
   "note": "equality is Python equality (1 == True)"
  },
  {
   "property": "C19",
   "status": "partial",
   "theorems": [
    "C19_keys_ignored_partial",
    "C19_nested_violation"
   ],
   "note": "Proved for values without lists of lists that hold dicts. For those the claim is false (proved): sorted compares the inner lists with all of their keys, and raises TypeError for dicts that differ in excluded keys only."
  },
  {
   "property": "C43",
   "status": "proved",
   "theorems": [
    "C43_fetched_once",
    "C43_answered_from_cache",
    "C43_failure_forgotten",
    "C43_empty_asked_again"
   ],
   "note": "For any history of calls, loaders and worlds. An empty (falsy) document is not kept, as proved in C43_empty_asked_again."
  },
  {
   "property": "C44",
   "status": "proved",
   "theorems": [
    "C44_walk_iff",
    "C44_pointer",
    "C44_impossible",
    "C44_resolve",
    "C44_resolve_cached",
    "C44_empty"
   ],
   "note": "RFC 6901 walking, plus the exact set of tokens int() also accepts as indexes (signs, leading zeros, negative, white space around, underscores, digits of any script: Spec/IntText)."
  },
  {
   "property": "C16",
   "status": "proved",
   "theorems": [
    "C16_plan",
    "C16_unsupported",
    "C16_newer"
   ],
   "note": "Upgrade modules and prepare_obj are parameters that may do anything to the application."
  },
  {
   "property": "C66",
   "status": "proved",
   "theorems": [
    "C66_cached",
    "C66_defaults"
   ],
   "note": "World and application are literally unchanged."
  },
  {
   "property": "C67",
   "status": "partial",
   "theorems": [
    "C67_truthful_partial",
    "C67_violation"
   ],
   "note": "False for a target older than the object (proved in C67_violation); holds otherwise."
  },
  {
   "property": "C68",
   "status": "partial",
   "theorems": [
    "C68_loaded_is_cached_partial",
    "C68_listing_violation",
    "C68_listing_built_twice"
   ],
   "note": "False for 1.2 listings, which are cached under the url of their last resource; holds for other documents when no prefix pointer is cached (C37)."
  },
  {
   "property": "C69",
   "status": "proved",
   "theorems": [
    "C69_original"
   ],
   "note": ""
  },
  {
   "property": "C70",
   "status": "proved",
   "theorems": [
    "C70_migrated_is_found"
   ],
   "note": "For prepare_obj doing nothing, upgrade modules that do not change earlier relocations of this pointer, and no object cached at a proper prefix pointer (C37)."
  },
  {
   "property": "C46",
   "status": "proved",
   "theorems": [
    "C46_schema_kept",
    "C46_every_depth",
    "toSchema_built"
   ],
   "note": "For every schema of regular shape (Spec.Regular); SchemaTo in Spec/Conv.lean says what is kept."
  },
  {
   "property": "C47",
   "status": "proved",
   "theorems": [
    "C47_reference",
    "C47_file"
   ],
   "note": ""
  },
  {
   "property": "C71",
   "status": "partial",
   "theorems": [
    "C71_schema",
    "C71_schema_loads",
    "C71_document",
    "C71_document_iff",
    "C71_scopes_violation",
    "C71_document_violation"
   ],
   "note": "Whole documents: whatever to_openapi produces from a document of regular shape can be loaded if and only if every oauth2 scheme with a flow OpenAPI 3 knows names scopes; false otherwise (proved, with a concrete document), since OAuthFlow.scopes is required."
  },
  {
   "property": "C45",
   "status": "partial",
   "theorems": [
    "C45_raises",
    "C45_table_partial",
    "C45_allowed",
    "C45_parameter_partial",
    "C45_header",
    "C45_tsv_violation",
    "C45_form_violation",
    "C45_default_violation"
   ],
   "note": "The raising half holds exactly. The table is right except for three proved deviations: tsv gets no style, csv in a form gets none, and an array without collectionFormat."
  },
  {
   "property": "C48",
   "status": "proved",
   "theorems": [
    "C48_partition",
    "C49_forms"
   ],
   "note": "Parameters of regular shape, direct or through references that lead to one."
  },
  {
   "property": "C49",
   "status": "partial",
   "theorems": [
    "C49_forms",
    "C49_more",
    "C49_split_violation",
    "C49_reference_violation"
   ],
   "note": "Exact outcome (raise or form) proved for any list of parts; the claim fails for a file beside another field when consumes does not fit, and for referenced parts (both proved)."
  },
  {
   "property": "C50",
   "status": "proved",
   "theorems": [
    "C50_second_body",
    "C50_never"
   ],
   "note": ""
  },
  {
   "property": "C51",
   "status": "proved",
   "theorems": [
    "C51_body",
    "C51_part_types"
   ],
   "note": ""
  },
  {
   "property": "C52",
   "status": "partial",
   "theorems": [
    "C52_own_body_partial",
    "C52_independent_partial",
    "C52_shared_violation",
    "C52_clash_violation",
    "C52_converted",
    "C52_violation",
    "C52_example_violation"
   ],
   "note": "Holds when no path-level parameter goes into a body; false otherwise: path-level form parts make one body shared by all operations (proved, with a concrete path item)."
  },
  {
   "property": "C53",
   "status": "proved",
   "theorems": [
    "C53_document",
    "C53_paths",
    "C53_path_item",
    "C53_summary",
    "C53_extension",
    "C53_converted",
    "C53_total"
   ],
   "note": "For every document of regular shape whose references lead somewhere and whose named parameters are valid; C53_total says by the text of the document when the conversion succeeds (Spec/Convertible)."
  },
  {
   "property": "C57",
   "status": "partial",
   "theorems": [
    "C57_response",
    "C57_no_file_partial",
    "C57_file_violation"
   ],
   "note": "Holds for every response that is no file; a file response gets a media type without schema (proved)."
  },
  {
   "property": "C56",
   "status": "proved",
   "theorems": [
    "C56_server"
   ],
   "note": "For schemes among http, https, ws, wss, and host and basePath strings or absent."
  },
  {
   "property": "C58",
   "status": "partial",
   "theorems": [
    "C58_violation",
    "C58_empty_partial"
   ],
   "note": "False: the class table declares security as a list of lists of strings, so no document with a non-empty root security list (of objects) loads. Only an empty list is accepted."
  },
  {
   "property": "C72",
   "status": "partial",
   "theorems": [
    "C72_scheme_partial",
    "C72_basic_violation",
    "C72_flow_violation",
    "C72_scopes_violation",
    "C72_no_flow"
   ],
   "note": "Holds for apiKey and for oauth2 implicit/password with scopes; false for basic, application, accessCode and empty scopes (proved)."
  },
  {
   "property": "C73",
   "status": "partial",
   "theorems": [
    "C73_servers_partial",
    "C73_host_violation",
    "Main.C73_elsewhere_violation"
   ],
   "note": "Holds when a base path is given; for a path item of another document, the url of that document is taken for the server (proved, Spec/Alone: ServersTo); without one the host is taken for a path and the url is scheme:///host (proved). Stated of the conversion of an operation, given the document's server url."
  },
  {
   "property": "C54",
   "status": "partial",
   "theorems": [
    "C54_definitions",
    "C54_responses",
    "C54_security",
    "C54_response_schema_violation"
   ],
   "note": "Definitions (and every subschema not below a reference or file), responses, their headers and security definitions are where references are relocated to. False for pointers to the schema of a response (proved). Documents of regular shape."
  },
  {
   "property": "C55",
   "status": "partial",
   "theorems": [
    "C55_body_partial",
    "C55_plain_partial",
    "C55_prefix_violation",
    "C55_escape_violation",
    "C55_empty_violation"
   ],
   "note": "Holds for names that need no escaping and have no name of a body parameter as a prefix; false for the others (proved)."
  },
  {
   "property": "C61",
   "status": "proved",
   "theorems": [
    "C61_registered",
    "C61_reference",
    "C61_distinct",
    "C61_same_name_violation"
   ],
   "note": "Resources of regular shape; the names are different when the separator's first character is not in the resource paths (deviation proved otherwise)."
  },
  {
   "property": "C62",
   "status": "proved",
   "theorems": [
    "C62_subtypes",
    "C62_only_parents",
    "C62_own"
   ],
   "note": "subTypes are lists; properties are kept exactly when no other model of the same resource path has the same id."
  },
  {
   "property": "C63",
   "status": "proved",
   "theorems": [
    "C63_site",
    "C63_round",
    "C63_noSite",
    "C63_no_operation_violation",
    "C63_two_hosts_violation",
    "C63_two_schemes_violation",
    "C63_two_ports_violation"
   ],
   "note": "Same scheme and host, at least one operation; also base paths without any host. Outside these hypotheses the outcome is wrong, as the violations prove."
  },
  {
   "property": "C64",
   "status": "partial",
   "theorems": [
    "C64_schema_bounds",
    "C64_parameter_bounds_partial",
    "C64_parameter_rejected",
    "C64_schema_rejected",
    "C64_bound_raises",
    "C64_repeated_violation",
    "C64_zero_violation"
   ],
   "note": "Holds for schemas and for parameters that are not repeated; repeated parameters lose their bounds, and numeric zero bounds are lost (proved). float and int are parameters."
  },
  {
   "property": "C65",
   "status": "proved",
   "theorems": [
    "C65_repeated",
    "C65_rejected"
   ],
   "note": ""
  },
  {
   "property": "C74",
   "status": "partial",
   "theorems": [
    "C74_resolves_partial",
    "C74_slash_violation"
   ],
   "note": "Holds for names with neither / nor ~; with a / the reference raises KeyError unless the part before it is a definition (proved)."
  },
  {
   "property": "C75",
   "status": "proved",
   "theorems": [
    "C75_document",
    "C75_object",
    "C63_site",
    "C63_noSite"
   ],
   "note": "DocumentTo12, PathsTo12 and OperationTo12 in Spec/Up12.lean say field by field what is converted. responseMessages are dropped: the only response is default."
  },
  {
   "property": "C76",
   "status": "partial",
   "theorems": [
    "C76_defined_partial",
    "C76_only",
    "C76_slash_violation"
   ],
   "note": "Holds for names with neither / nor ~; others are defined under the escaped name while requirements use the raw one (proved)."
  },
  {
   "property": "C77",
   "status": "partial",
   "theorems": [
    "C77_site",
    "C77_noSite",
    "C77_no_models_violation",
    "C77_no_parameters_violation",
    "C63_no_operation_violation"
   ],
   "note": "Holds for documents meeting Upgradable (which asks more than Swagger 1.2 does); models and parameters are optional in 1.2, and documents without them are rejected (proved)."
  },
  {
   "property": "C59",
   "status": "proved",
   "theorems": [
    "PathItem.C59_terminates",
    "PathItem.C59_fuel",
    "PathItem.C59_first",
    "PathItem.C59_original",
    "PathItem.C59_succeeds",
    "PathItem.C59_unresolved",
    "PathItem.C59_fields_violation"
   ],
   "note": "The application is a parameter that gives the same object for the same reference and does not change children (Steady). Only children are merged: a summary or description is lost (proved as C59_fields_violation)."
  },
  {
   "property": "C60",
   "status": "partial",
   "theorems": [
    "Yaml.C60_strings",
    "Yaml.C60_kept",
    "Yaml.C60_json",
    "Yaml.C60_twice",
    "Yaml.C60_none",
    "Yaml.C60_numbers",
    "Yaml.C60_collision_violation"
   ],
   "note": "Every code becomes a string and every response is kept, when not both 200 and \"200\" are there; with both, one is lost (proved)."
  },
  {
   "property": "C78",
   "status": "partial",
   "theorems": [
    "Yaml.C78_number_violation",
    "Yaml.C78_strings",
    "Yaml.C78_other_order"
   ],
   "note": "False: the scan for references, which needs string keys, runs before the fix, so numeric codes raise AttributeError (proved for every document with one); documents with string codes pass unchanged."
  },
  {
   "property": "C79",
   "status": "partial",
   "theorems": [
    "Refs.C79_resolved",
    "Refs.C79_succeeds",
    "Refs.C79_root_violation"
   ],
   "note": "Holds for every document but one that is itself a Reference, which is never resolved (proved). The application (resolve_obj) is a parameter; YamlFixer between the two scans is C60/C78."
  },
  {
   "property": "C80",
   "status": "partial",
   "theorems": [
    "Refs.C80_resolved_partial",
    "Refs.C80_succeeds"
   ],
   "note": "For documents whose scan visits every object once (C32: all without mixed callbacks), and that are not themselves a Reference."
  },
  {
   "property": "C81",
   "status": "partial",
   "theorems": [
    "Refs.C81_dangling",
    "Refs.C81_dangling3",
    "Refs.C81_error_violation"
   ],
   "note": "An exception is raised for every such document, but the code raises AttributeError while it puts together the message (proved on a witness)."
  },
  {
   "property": "C82",
   "status": "partial",
   "theorems": [
    "Refs.C82_examples_violation"
   ],
   "note": "False: for every document with such a media type, and every application, an exception is raised; all the theorem shows is the violation."
  },
  {
   "property": "C83",
   "status": "partial",
   "theorems": [
    "Getter.C83_file_partial",
    "Getter.C83_nothing_partial",
    "Getter.C83_url",
    "Getter.C83_drive_partial",
    "Getter.C83_yml_violation",
    "Getter.C83_folder_violation",
    "Getter.C83_extension_violation"
   ],
   "note": "C83_drive_partial is the case of a path with a drive letter. Holds for usual paths (no url, no drive letter, a name, no extension that merely ends like a document's, folder without one) with .json and .yaml as the extensions tried; false for .yml, for a folder with the extension of a document, and for an extension that ends like one (proved)."
  },
  {
   "property": "C84",
   "status": "proved",
   "theorems": [
    "Getter.C84_in_order",
    "Getter.C84_dict_getter",
    "Getter.C84_order_violation"
   ],
   "note": "C84_order_violation shows that the order of the urls is needed."
  },
  {
   "property": "C85",
   "status": "partial",
   "theorems": [
    "Getter.C85_given",
    "Getter.C85_default_partial",
    "Getter.C85_local",
    "Getter.C85_local_text",
    "Getter.C85_error",
    "Getter.C85_default_violation"
   ],
   "note": "False for file urls: the default getter is ignored and LocalGetter is used (proved). Getter classes derived from SimpleGetter, and getter objects."
  },
  {
   "property": "C86",
   "status": "partial",
   "theorems": [
    "Main.C86_two",
    "Main.C86_two_paths",
    "Main.C86_native_partial",
    "Main.C86_native_paths_partial",
    "Main.C86_up",
    "Main.C86_up_paths",
    "Main.C86_up_example"
   ],
   "note": "Whole-application model (load_obj, migrate_obj, the upgrade modules of 2.0 and 3.0.0 with their scanners). The _paths theorems are for documents whose path items refer to one another (in circles too, except when migrated from 2.0 to 3.0.0). Partial because the code does not keep the claim for 3.0.0 documents with mixed callbacks (C32) or media type examples (C82), nor for names as in C55."
  },
  {
   "property": "C87",
   "status": "partial",
   "theorems": [
    "Main.C87_alone_partial",
    "Main.C87_asked_partial",
    "Main.C87_example",
    "Main.C87_kinds_violation"
   ],
   "note": "Holds for licenses, infos, schemas and path items without references, of documents nothing is known of: loaded, migrated (what they say is kept), found in both versions, nothing else fetched; also when asked for by reference. Not covered: objects with references (schemas: C96). False of all other kinds: objects of 2.0 of any other class than Swagger, License, Info, Schema and PathItem are refused, whatever the object, its place and the state (proved)."
  },
  {
   "property": "C88",
   "status": "proved",
   "theorems": [
    "Main.C88_pieces"
   ],
   "note": "Pieces of one document must not have pointers one of which begins with the other (that is C37, false); a reference leads to the root of a piece, or anywhere into the piece it stands in or the main document. The bound on rounds is that of the model's merge loop (the code has none) and is met by any number large enough; the number n likewise bounds how deep nested upgrades go."
  },
  {
   "property": "C89",
   "status": "partial",
   "theorems": [
    "C89_fields_partial",
    "C89_fields_violation"
   ],
   "note": "Holds for all but three fields of OpenAPI 3.0.0: Schema.deprecated (declared as depreated), Encoding.style (declared as stype) and Header.content; these are left out of every dump, and the first two cannot be read (proved). Spec/Fields.lean lists the fields from the specifications. null counts as not given; empty containers are not dumped (C22)."
  },
  {
   "property": "C90",
   "status": "partial",
   "theorems": [
    "C90_renamed_partial",
    "C90_client_credentials_violation"
   ],
   "note": "Holds for every renamed attribute of the package but OAuthFlows.client_credentials, which stands for a name that does not exist: reading it raises AttributeError for every object (proved)."
  },
  {
   "property": "C91",
   "status": "partial",
   "theorems": [
    "Meta.C91_declared",
    "Meta.C91_tables",
    "Meta.C91_attached_violation"
   ],
   "note": "Holds as far as bases are as they were when the class was made; what is attached to a base later is missing in classes derived before (Header.content, proved). C91_tables: the class tables of the model are what the statements of the three modules make."
  },
  {
   "property": "C92",
   "status": "partial",
   "theorems": [
    "C92_empty",
    "C92_windows",
    "C92_scheme",
    "C92_file",
    "C92_refused",
    "C92_semicolon_violation"
   ],
   "note": "Strings without tab and line breaks in them. Paths may begin with any visible character but ? # ; a path beginning with ; is refused (proved). Making a path absolute and a url of it (os.path.abspath, pathname2url) are parameters."
  },
  {
   "property": "C93",
   "status": "partial",
   "theorems": [
    "C93_body",
    "C93_plain_partial",
    "C93_shift_violation"
   ],
   "note": "Holds for every parameter that goes into the body, and for the others with none of these before them; for all remaining ones it is false (proved for every document): the parameter moves forward in the list and references do not follow. Which request body: the one common to all operations (C52 says why that may not be the one of the path item). Documents of regular shape."
  },
  {
   "property": "C94",
   "status": "partial",
   "theorems": [
    "Attr.C94_read",
    "Attr.C94_refused",
    "Attr.C94_unset",
    "Attr.C94_final_violation"
   ],
   "note": "Holds for every history with classes of distinct keys and writes that give a class. Before it is written, an attribute the class of the group does not have cannot be read: the group of 2.0 path items lacks final_obj, which the merge sets (proved)."
  },
  {
   "property": "C95",
   "status": "partial",
   "theorems": [
    "Main.C95_reuse",
    "Main.C95_all",
    "Main.C95_all_example",
    "Main.C95_part",
    "Main.C95_moved_violation"
   ],
   "note": "Holds for any number of objects migrated before, none inside another one (C95_all; C95_part: one object and a part of the document), at places whose later tokens need no escaping (C27 shows that the others are lost); false for definitions, shared parameters and responses and security definitions, whose place is another one in 3.0.0: they are converted again and the object migrated before is not in the document (proved for every document)."
  },
  {
   "property": "C96",
   "status": "partial",
   "theorems": [
    "Main.C96_documents_partial",
    "Main.C96_example"
   ],
   "note": "Holds for main documents as in C86 whose schemas may lead to other documents and whose path items may refer to one another (not in circles), but not to those of other documents; the pieces there are schemas, no files and not themselves references, and their references lead to one another or to definitions of the main document. Pieces of other kinds cannot be migrated at all (C87). Two conditions belong to the model, where 3.0.0 objects do not know their document: see Spec/PiecesUp."
  },
  {
   "property": "C97",
   "status": "partial",
   "theorems": [
    "Main.Native.C97_pieces_partial"
   ],
   "note": "Holds for documents without the callbacks that scans lose objects of (C32) and without media type examples (C82); what references lead to are objects with fields (a Callback, which is a map, is left out). Conditions on pieces as in C88."
  },
  {
   "property": "C98",
   "status": "partial",
   "theorems": [
    "Main.C98_two",
    "Main.C98_flow_violation",
    "C98_resources"
   ],
   "note": "Holds for all listings and resources that are well formed (C77), of one site or none (C63), name only models that exist, and whose definition names need no escaping (C74). The grant by authorization code becomes a flow that 2.0 does not have (proved). float(), int() and str.lower() are parameters with the laws PythonOk states."
  },
  {
   "property": "C99",
   "status": "partial",
   "theorems": [
    "Main.C99_three",
    "Main.C99_server_violation"
   ],
   "note": "Under the conditions of C98, for operations with a form or at most one body and OAuth 2 with a grant that has a url. The server url of the 3.0.0 document is the bare host, a relative url: scheme and host are lost to a client (proved for every application with a host)."
  },
  {
   "property": "C100",
   "status": "partial",
   "theorems": [
    "Parent.C100_parent_partial",
    "Parent.C100_loads",
    "Parent.C100_up_partial",
    "Parent.C100_history",
    "Parent.C100_empty_violation",
    "Parent.C100_merge_violation",
    "Parent.C100_put_violation"
   ],
   "note": "Does not hold for an empty list or map that is a child of an object of a class (proved: it has no parent), nor after merge_children, m[k] = x or append (proved: the parent stays). The override argument of constructors is not modelled here."
  },
  {
   "property": "C101",
   "status": "partial",
   "theorems": [
    "Access.C101_map",
    "Access.C101_list",
    "Access.C101_put",
    "Access.C101_extend",
    "Access.C101_equal",
    "Access.C101_equal_self",
    "Access.C101_iterate_violation"
   ],
   "note": "Iterating over a map raises KeyError, for every map (proved). Keys of JSON objects are strings."
  },
  {
   "property": "C102",
   "status": "proved",
   "theorems": [
    "Scanner.C102_scan",
    "Scanner.C102_lineage",
    "Scanner.C102_times",
    "Scanner.C102_no_root",
    "Scanner.C102_package",
    "Scanner.C102_header_twice"
   ],
   "note": "Class hierarchies with single inheritance, as all of the package are; handlers do not change the scanned objects. A handler registered for both Parameter and Header of 3.0.0 is called twice for each header (Header derives from Parameter)."
  },
  {
   "property": "C103",
   "status": "proved",
   "theorems": [
    "C103_continues",
    "C103_loads",
    "C103_refuses",
    "C103_empty"
   ],
   "note": ""
  },
  {
   "property": "C104",
   "status": "partial",
   "theorems": [
    "C104_failed_partial",
    "C104_failed_dummy",
    "C104_one_entry",
    "C104_unsupported",
    "C104_removed_violation"
   ],
   "note": "Holds without remove_dummy; with it (as the scanners call it) the objects cached below are removed before the document is built, and stay lost when that fails (proved). Nothing else is lost."
  },
  {
   "property": "C105",
   "status": "proved",
   "theorems": [
    "C105_failed",
    "C105_refused"
   ],
   "note": "Routes may have been registered for the failing stage; nothing is claimed about them."
  },
  {
   "property": "C106",
   "status": "partial",
   "theorems": [
    "C106_moved_partial",
    "Main.C106_media_violation",
    "Main.C73_elsewhere_violation"
   ],
   "note": "Proved for path items whose operations name their own media types (or need none) and no schemes, and that have no body at path level; false otherwise: the consumes and produces of the document are lost for a path item of another document (proved on an application of one path), and its servers get the url of that document."
  },
  {
   "property": "C107",
   "status": "partial",
   "theorems": [
    "C107_plain_partial",
    "Main.C107_document_partial",
    "Main.C107_document_example",
    "C107_body_violation",
    "C107_form_violation"
   ],
   "note": "Proved for all parameters outside of bodies: those written out in place (C107_plain_partial) and, in whole documents, those behind references to shared parameters as well (C107_document_partial: what the references lead to after the conversion); for bodies and forms the claim is false: when the path item has a body (or form) and an operation one of its own, the path item is not converted at all (proved for every such path item)."
  },
  {
   "property": "C108",
   "status": "proved",
   "theorems": [
    "App.C108_root",
    "App.C108_version",
    "App.C108_empty",
    "App.C108_spelling_violation"
   ],
   "note": "For urls with a scheme that are written as urlunparse writes them (C10); for others the document is cached under the rewritten url and references without url miss it (proved)."
  },
  {
   "property": "C109",
   "status": "partial",
   "theorems": [
    "C109_default_partial",
    "C109_messages_violation"
   ],
   "note": "Only what an operation returns is kept, as the default response; for every document, no operation has any response under a code (proved)."
  },
  {
   "property": "C110",
   "status": "partial",
   "theorems": [
    "C110_description_partial",
    "C110_examples_violation",
    "C110_file_violation"
   ],
   "note": "Descriptions of parts that are no files are kept; examples of responses and descriptions of files are lost, always (proved)."
  },
  {
   "property": "C111",
   "status": "partial",
   "theorems": [
    "C111_one_partial",
    "C111_schemes_violation",
    "C111_host_violation"
   ],
   "note": "Holds with a base path and at most one scheme; false with several schemes (only the first has a server) and without a base path (the server is the bare host, a relative url): both proved for every document."
  },
  {
   "property": "C112",
   "status": "proved",
   "theorems": [
    "Main.C112_served",
    "Main.C112_reads",
    "Main.C112_reads_native",
    "Main.C112_reads_upgraded"
   ],
   "note": "The application is put on top of the model of Resolver.resolve, with a getter that notes every url it is asked for; instances in Props/StackExample."
  },
  {
   "property": "C113",
   "status": "partial",
   "theorems": [
    "Main.C113_converted",
    "Main.C113_native_partial",
    "Main.C113_two",
    "Main.C113_native_example",
    "Main.C113_two_example",
    "Main.C113_converted_example"
   ],
   "note": "Savable (Spec/SavedDoc) is said of the object after preparation; that a dump exists is proved for documents in which nothing is in its way (Whole: no required child empty, C23; no additionalProperties: true, C24), the code not keeping the claim without. Partial also because 3.0.0 documents are those of C86 (C32, C82)."
  },
  {
   "property": "C114",
   "status": "partial",
   "theorems": [
    "C114_place_partial",
    "C114_pointer_partial",
    "C114_lost_violation",
    "C114_example"
   ],
   "note": "The code gives '' for the place when it meets lists of different lengths (or elements of different classes) at any depth; proved: the place that is given is right, or it is '' and there is such a place."
  }
 ]
}
