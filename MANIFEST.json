{
 "claims": [
  {
   "property": "C01",
   "status": "proved",
   "theorems": [
    "Capnpy.Props.C01_struct_roundtrip",
    "Capnpy.Props.C01_list_roundtrip",
    "Capnpy.Props.C01_far_roundtrip",
    "Capnpy.Props.C01_struct_fields_independent",
    "Capnpy.Props.C01_list_fields_independent",
    "Capnpy.Props.C01_far_fields_independent",
    "Capnpy.Props.C01_words",
    "Capnpy.Props.C01_round_up"
   ],
   "note": ""
  },
  {
   "property": "C02",
   "status": "proved",
   "theorems": [
    "Capnpy.Props.C02_decode",
    "Capnpy.Props.C02_read_ptr",
    "Capnpy.Props.C02_deref"
   ],
   "note": ""
  },
  {
   "property": "C03",
   "status": "proved",
   "theorems": [
    "Capnpy.Props.C03_write_read",
    "Capnpy.Props.C03_write_fails",
    "Capnpy.Props.C03_write_bool",
    "Capnpy.Props.C03_write_bool_int_argument"
   ],
   "note": ""
  },
  {
   "property": "C04",
   "status": "proved",
   "theorems": [
    "Capnpy.Props.C04_read",
    "Capnpy.Props.C04_read_local"
   ],
   "note": ""
  },
  {
   "property": "C05",
   "status": "proved",
   "theorems": [
    "Capnpy.Props.C05_allocations",
    "Capnpy.Props.C05_pointer_stays"
   ],
   "note": ""
  },
  {
   "property": "C06",
   "status": "proved",
   "theorems": [
    "Capnpy.Props.C06_compiled_builder"
   ],
   "note": ""
  },
  {
   "property": "C07",
   "status": "proved",
   "theorems": [
    "Capnpy.Props.C07_text",
    "Capnpy.Props.C07_data",
    "Capnpy.Props.C07_none"
   ],
   "note": ""
  },
  {
   "property": "C08",
   "status": "proved",
   "theorems": [
    "Capnpy.Props.C08_data_beyond",
    "Capnpy.Props.C08_bool_beyond",
    "Capnpy.Props.C08_ptr_beyond"
   ],
   "note": ""
  },
  {
   "property": "C09",
   "status": "proved",
   "theorems": [
    "Capnpy.Props.C09_prim",
    "Capnpy.Props.C09_enum",
    "Capnpy.Props.C09_bool",
    "Capnpy.Props.C09_same_value"
   ],
   "note": ""
  },
  {
   "property": "C10",
   "status": "proved",
   "theorems": [
    "Capnpy.Props.C10_struct",
    "Capnpy.Props.C10_list",
    "Capnpy.Props.C10_data"
   ],
   "note": ""
  },
  {
   "property": "C11",
   "status": "proved",
   "theorems": [
    "Capnpy.Props.C11_has",
    "Capnpy.Props.C11_not_has",
    "Capnpy.Props.C11_get",
    "Capnpy.Props.C11_has_text",
    "Capnpy.Props.C11_null_landing_pad"
   ],
   "note": ""
  },
  {
   "property": "C12",
   "status": "proved",
   "theorems": [
    "Capnpy.Props.C12_copy_struct",
    "Capnpy.Props.C12_copy_pointer",
    "Capnpy.Props.C12_copy_none"
   ],
   "note": ""
  },
  {
   "property": "C13",
   "status": "proved",
   "theorems": [
    "Capnpy.Props.C13_copy_frame",
    "Capnpy.Props.C13_copy_keeps"
   ],
   "note": ""
  },
  {
   "property": "C14",
   "status": "proved",
   "theorems": [
    "Capnpy.Props.C14_compact",
    "Capnpy.Props.C14_compact_canonical"
   ],
   "note": ""
  },
  {
   "property": "C15",
   "status": "proved",
   "theorems": [
    "Capnpy.Props.C15_compact_is_compact_iff",
    "Capnpy.Props.C15_compact_not_compact"
   ],
   "note": "Exact characterisation (iff). The unconditional claim of the docs is false: C15_compact_not_compact."
  },
  {
   "property": "C16",
   "status": "proved",
   "theorems": [
    "Capnpy.Props.C16_get_end"
   ],
   "note": ""
  },
  {
   "property": "C17",
   "status": "proved",
   "theorems": [
    "Capnpy.Props.C17_slow_path",
    "Capnpy.Props.C17_fast_path",
    "Capnpy.Props.C17_fast_path_loaded",
    "Capnpy.Props.C17_empty_struct_lost",
    "Capnpy.Props.C17_unpadded_buffer"
   ],
   "note": "Complete case analysis of the fast path; the plain round trip is false for empty structs (C17_empty_struct_lost) and unpadded buffers (C17_unpadded_buffer)."
  },
  {
   "property": "C18",
   "status": "proved",
   "theorems": [
    "Capnpy.Props.C18_frame",
    "Capnpy.Props.C18_size"
   ],
   "note": ""
  },
  {
   "property": "C19",
   "status": "proved",
   "theorems": [
    "Capnpy.Props.C19_truncated",
    "Capnpy.Props.C19_truncated_stream",
    "Capnpy.Props.C19_truncated_empty",
    "Capnpy.Props.C19_extra"
   ],
   "note": ""
  },
  {
   "property": "C20",
   "status": "proved",
   "theorems": [
    "Capnpy.Props.C20_load_message",
    "Capnpy.Props.C20_segment_starts",
    "Capnpy.Props.C20_load"
   ],
   "note": ""
  },
  {
   "property": "C21",
   "status": "proved",
   "theorems": [
    "Capnpy.Props.C21_far_transparent"
   ],
   "note": ""
  },
  {
   "property": "C22",
   "status": "proved",
   "theorems": [
    "Capnpy.Props.C22_load_all",
    "Capnpy.Props.C22_load_all_truncated"
   ],
   "note": ""
  },
  {
   "property": "C23",
   "status": "proved",
   "theorems": [
    "Capnpy.Props.C23_buffered_equals_flat",
    "Capnpy.Props.C23_nothing_lost"
   ],
   "note": ""
  },
  {
   "property": "C24",
   "status": "proved",
   "theorems": [
    "Capnpy.Props.C24_readline",
    "Capnpy.Props.C24_firstLine"
   ],
   "note": ""
  },
  {
   "property": "C25",
   "status": "proved",
   "theorems": [
    "Capnpy.Props.C25_write_flush",
    "Capnpy.Props.C25_peer",
    "Capnpy.Props.C25_retry_duplicates"
   ],
   "note": "All histories, all partial failures. Bytes sent by a failing sendall are sent again by the retry: C25_retry_duplicates."
  },
  {
   "property": "C26",
   "status": "proved",
   "theorems": [
    "Capnpy.Props.C26_string_buffer"
   ],
   "note": ""
  },
  {
   "property": "C27",
   "status": "proved",
   "theorems": [
    "Capnpy.Props.C27_len",
    "Capnpy.Props.C27_getitem",
    "Capnpy.Props.C27_getitem_negative",
    "Capnpy.Props.C27_getitem_out_of_range",
    "Capnpy.Props.C27_iter",
    "Capnpy.Props.C27_slice",
    "Capnpy.Props.C27_slice_zero_step",
    "Capnpy.Props.C27_truncated_iteration",
    "Capnpy.Props.C27_nested_type"
   ],
   "note": ""
  },
  {
   "property": "C28",
   "status": "proved",
   "theorems": [
    "Capnpy.Props.C28_roundtrip",
    "Capnpy.Props.C28_none",
    "Capnpy.Props.C28_bool_not_constructible",
    "Capnpy.Props.C28_schema_evolution_corrupts"
   ],
   "note": ""
  },
  {
   "property": "C29",
   "status": "proved",
   "theorems": [
    "Capnpy.Props.C29_clean",
    "Capnpy.Props.C29_compact_sound",
    "Capnpy.Props.C29_numbers",
    "Capnpy.Props.C29_constructed",
    "Capnpy.Props.C29_python_list",
    "Capnpy.Props.C29_structs_raise",
    "Capnpy.Props.C29_padding_garbage",
    "Capnpy.Props.C29_false_positive",
    "Capnpy.Props.C29_false_negative",
    "Capnpy.Props.C29_nested_never_equal",
    "Capnpy.Props.C29_null_is_not_empty"
   ],
   "note": "The claim for arbitrary lists is false in both directions: C29_false_positive, C29_false_negative, C29_padding_garbage, C29_nested_never_equal, C29_null_is_not_empty."
  },
  {
   "property": "C30",
   "status": "proved",
   "theorems": [
    "Capnpy.Props.C30_roundtrip",
    "Capnpy.Props.C30_call",
    "Capnpy.Props.C30_no_arguments",
    "Capnpy.Props.C30_unknown_keyword",
    "Capnpy.Props.C30_field_called_pos",
    "Capnpy.Props.C30_field_called_builder",
    "Capnpy.Props.C30_float_default",
    "Capnpy.Props.C30_any_pointer",
    "Capnpy.Props.C30_group_name_collision"
   ],
   "note": ""
  },
  {
   "property": "C31",
   "status": "proved",
   "theorems": [
    "Capnpy.Props.C31_which",
    "Capnpy.Props.C31_wrong_member",
    "Capnpy.Props.C31_two_members",
    "Capnpy.Props.C31_new_member",
    "Capnpy.Props.C31_large_discriminant"
   ],
   "note": ""
  },
  {
   "property": "C32",
   "status": "proved",
   "theorems": [
    "Capnpy.Props.C32_nullable",
    "Capnpy.Props.C32_omitted",
    "Capnpy.Props.C32_convert_case_false"
   ],
   "note": ""
  },
  {
   "property": "C33",
   "status": "proved",
   "theorems": [
    "Capnpy.Props.C33_inthash",
    "Capnpy.Props.C33_longhash",
    "Capnpy.Props.C33_never_minus_one",
    "Capnpy.Props.C33_inthash_py2",
    "Capnpy.Props.C33_longhash_py2"
   ],
   "note": ""
  },
  {
   "property": "C34",
   "status": "proved",
   "theorems": [
    "Capnpy.Props.C34_eq_iff_same_key",
    "Capnpy.Props.C34_eq_tuple",
    "Capnpy.Props.C34_equivalence",
    "Capnpy.Props.C34_hash_respects_eq",
    "Capnpy.Props.C34_fast_hash",
    "Capnpy.Props.C34_unkeyed_raises",
    "Capnpy.Props.C34_null_unicode_hash"
   ],
   "note": ""
  },
  {
   "property": "C35",
   "status": "proved",
   "theorems": [
    "Capnpy.Props.C35_field_roundtrip",
    "Capnpy.Props.C35_name",
    "Capnpy.Props.C35_name_nonneg",
    "Capnpy.Props.C35_negative_value",
    "Capnpy.Props.C35_member_called_name",
    "Capnpy.Props.C35_members"
   ],
   "note": "Negative values are Python negative indices (C35_negative_value); a member called 'name' shadows the property (C35_member_called_name)."
  },
  {
   "property": "C36",
   "status": "proved",
   "theorems": [
    "Capnpy.Props.C36_readable",
    "Capnpy.Props.C36_combine",
    "Capnpy.Props.C36_assoc",
    "Capnpy.Props.C36_resolution",
    "Capnpy.Props.C36_never_notset",
    "Capnpy.Props.C36_bool",
    "Capnpy.Props.C36_from_dict",
    "Capnpy.Props.C36_unknown_option"
   ],
   "note": ""
  },
  {
   "property": "C37",
   "status": "proved",
   "theorems": [
    "Capnpy.Props.C37_no_uppercase",
    "Capnpy.Props.C37_snake_case_unchanged",
    "Capnpy.Props.C37_idempotent",
    "Capnpy.Props.C37_only_inserts_underscores",
    "Capnpy.Props.C37_first_character",
    "Capnpy.Props.C37_characterization",
    "Capnpy.Props.C37_never_a_keyword",
    "Capnpy.Props.C37_collision",
    "Capnpy.Props.C37_mangle_collision"
   ],
   "note": ""
  },
  {
   "property": "C38",
   "status": "proved",
   "theorems": [
    "Capnpy.Props.C38_pickle",
    "Capnpy.Props.C38_raw",
    "Capnpy.Props.C38_raw_header",
    "Capnpy.Props.C38_raw_refused",
    "Capnpy.Props.C38_list"
   ],
   "note": ""
  },
  {
   "property": "C39",
   "status": "proved",
   "theorems": [
    "Capnpy.Props.C39_copy_pointer",
    "Capnpy.Props.C39_copy_struct",
    "Capnpy.Props.C39_copy_list"
   ],
   "note": ""
  },
  {
   "property": "C40",
   "status": "proved",
   "theorems": [
    "Capnpy.Props.C40_strhash",
    "Capnpy.Props.C40_strhash_clamped",
    "Capnpy.Props.C40_out_of_range_overread",
    "Capnpy.Props.C40_strhash_py2",
    "Capnpy.Props.C40_hash_str",
    "Capnpy.Props.C40_hash_str_pyx",
    "Capnpy.Props.C40_empty_text_overread"
   ],
   "note": ""
  },
  {
   "property": "C41",
   "status": "proved",
   "theorems": [
    "Capnpy.Props.C41_read_struct",
    "Capnpy.Props.C41_load_total"
   ],
   "note": ""
  },
  {
   "property": "C42",
   "status": "proved",
   "theorems": [
    "Capnpy.Props.C42_same_module",
    "Capnpy.Props.C42_distinct",
    "Capnpy.Props.C42_first_options",
    "Capnpy.Props.C42_failure_not_cached",
    "Capnpy.Props.C42_cyclic_imports_fail",
    "Capnpy.Props.C42_acyclic_loads",
    "Capnpy.Props.C42_exactly_one",
    "Capnpy.Props.C42_naming",
    "Capnpy.Props.C42_search",
    "Capnpy.Props.C42_links_are_different"
   ],
   "note": ""
  },
  {
   "property": "C43",
   "status": "proved",
   "theorems": [
    "Capnpy.Props.C43_queries_do_not_matter",
    "Capnpy.Props.C43_registered",
    "Capnpy.Props.C43_unregistered",
    "Capnpy.Props.C43_query_between_registers",
    "Capnpy.Props.C43_list_grows"
   ],
   "note": "A query between two registrations does change later answers: C43_query_between_registers."
  },
  {
   "property": "C44",
   "status": "proved",
   "theorems": [
    "Capnpy.Props.C44_classification",
    "Capnpy.Props.C44_exclusive",
    "Capnpy.Props.C44_casts",
    "Capnpy.Props.C44_far",
    "Capnpy.Props.C44_null"
   ],
   "note": ""
  },
  {
   "property": "C45",
   "status": "proved",
   "theorems": [
    "Capnpy.Props.C45_same_result",
    "Capnpy.Props.C45_same_exception",
    "Capnpy.Props.C45_copy_struct",
    "Capnpy.Props.C45_copy_pointer",
    "Capnpy.Props.C45_compact",
    "Capnpy.Props.C45_dumps",
    "Capnpy.Props.C45_negative_position",
    "Capnpy.Props.C45_heap_overflow",
    "Capnpy.Props.C45_large_list"
   ],
   "note": "Simulation for every source without reachable pointers to before its start; the other sources: C45_negative_position, C45_heap_overflow, C45_large_list."
  },
  {
   "property": "C46",
   "status": "proved",
   "theorems": [
    "Capnpy.Props.C46_fields",
    "Capnpy.Props.C46_constructors",
    "Capnpy.Props.C46_constructors_exact",
    "Capnpy.Props.C46_positions",
    "Capnpy.Props.C46_item_length",
    "Capnpy.Props.C46_sign_differs"
   ],
   "note": "Exact on every word for the accessors; constructors modulo 2^64, exact when the Python result fits an int64; C46_sign_differs otherwise."
  },
  {
   "property": "C47",
   "status": "proved",
   "theorems": [
    "Capnpy.Props.C47_reads",
    "Capnpy.Props.C47_unpack",
    "Capnpy.Props.C47_unpack_overflow",
    "Capnpy.Props.C47_pack_into",
    "Capnpy.Props.C47_pack_into_differs",
    "Capnpy.Props.C47_message_header",
    "Capnpy.Props.C47_message_header_negative",
    "Capnpy.Props.C47_pack_int64",
    "Capnpy.Props.C47_dump_message"
   ],
   "note": "Agreement on the stated ranges; C47_unpack_overflow, C47_pack_into_differs and C47_message_header_negative say what happens outside."
  },
  {
   "property": "C48",
   "status": "proved",
   "theorems": [
    "Capnpy.Props.C48_tuplehash",
    "Capnpy.Props.C48_tuplehash_old",
    "Capnpy.Props.C48_error"
   ],
   "note": "Exact for every list of item hashes, against an independent specification of CPython's algorithms (Spec/Hash.lean)."
  },
  {
   "property": "C49",
   "status": "proved",
   "theorems": [
    "Capnpy.Props.C49_same_result",
    "Capnpy.Props.C49_same_exception",
    "Capnpy.Props.C49_roundtrip",
    "Capnpy.Props.C49_out_of_range",
    "Capnpy.Props.C49_heap_overflow"
   ],
   "note": "Simulation for all items; C49_heap_overflow and C49_out_of_range show where the versions differ."
  },
  {
   "property": "C50",
   "status": "proved",
   "theorems": [
    "Capnpy.Props.C50_same_text",
    "Capnpy.Props.C50_parse",
    "Capnpy.Props.C50_injective",
    "Capnpy.Props.C50_compact",
    "Capnpy.Props.C50_decimal",
    "Capnpy.Props.C50_data_literal",
    "Capnpy.Props.C50_text_literal",
    "Capnpy.Props.C50_backslash_wrong",
    "Capnpy.Props.C50_backslash_unreadable",
    "Capnpy.Props.C50_null_text_item",
    "Capnpy.Props.C50_data_item_binary",
    "Capnpy.Props.C50_enum_item",
    "Capnpy.Props.C50_nullable_member"
   ],
   "note": "The text depends only on the value (C50_same_text, C50_compact); it parses, in an independent grammar, to the value's tree (C50_parse, C50_injective); integers print in decimal (C50_decimal); Data literals are faithful for all bytes (C50_data_literal) and Text literals if there is no backslash or newline (C50_text_literal). Witnesses for what is not true: C50_backslash_wrong, C50_backslash_unreadable, C50_null_text_item, C50_data_item_binary, C50_enum_item, C50_nullable_member. The repr of floats is a parameter."
  },
  {
   "property": "C51",
   "status": "proved",
   "theorems": [
    "Capnpy.Props.C51_names",
    "Capnpy.Props.C51_injective",
    "Capnpy.Props.C51_imported",
    "Capnpy.Props.C51_enum_items",
    "Capnpy.Props.C51_enum_items_range"
   ],
   "note": "Names for every node of every file of the tree specification (Sub, dotted, under); injectivity of the class names; names of imported types (Chain); tag members. FileOK states what the Cap'n Proto compiler guarantees; a concrete file meets it (exFile_ok)."
  },
  {
   "property": "C52",
   "status": "proved",
   "theorems": [
    "Capnpy.Props.C52_imports",
    "Capnpy.Props.C52_types",
    "Capnpy.Props.C52_groups",
    "Capnpy.Props.C52_class_name",
    "Capnpy.Props.C52_enum_members",
    "Capnpy.Props.C52_union_tag",
    "Capnpy.Props.C52_const",
    "Capnpy.Props.C52_nested_const",
    "Capnpy.Props.C52_module_id",
    "Capnpy.Props.C52_frame",
    "Capnpy.Props.C52_field_attrs",
    "Capnpy.Props.C52_accessors",
    "Capnpy.Props.C52_annotation",
    "Capnpy.Props.C52_imported_type",
    "Capnpy.Props.C52_group_hides_type",
    "Capnpy.Props.C52_const_wrong_class",
    "Capnpy.Props.C52_nested_list_const",
    "Capnpy.Props.C52_list_const_reflection",
    "Capnpy.Props.C52_empty_enum",
    "Capnpy.Props.C52_annotations_collide",
    "Capnpy.Props.C52_interface",
    "Capnpy.Props.C52_imported_nested_item"
   ],
   "note": "The generator emits statements, an interpreter runs them; the result is characterised for all FileOK and Supported files, including the accessors (C52_accessors) and annotation classes (C52_annotation). Witnesses for the exceptions: C52_group_hides_type, C52_const_wrong_class, C52_nested_list_const, C52_list_const_reflection, C52_empty_enum, C52_annotations_collide, C52_interface, C52_imported_nested_item. Not modelled: $Py.group fake nodes, bodies of methods, pyx mode."
  },
  {
   "property": "C53",
   "status": "proved",
   "theorems": [
    "Capnpy.Props.C53_fields",
    "Capnpy.Props.C53_items",
    "Capnpy.Props.C53_union",
    "Capnpy.Props.C53_tag_65535",
    "Capnpy.Props.C53_compact",
    "Capnpy.Props.C53_dumps",
    "Capnpy.Props.C53_in_buffer",
    "Capnpy.Props.C53_ignored_text",
    "Capnpy.Props.C53_ignored_list",
    "Capnpy.Props.C53_tag_example",
    "Capnpy.Props.C53_ignored_far",
    "Capnpy.Props.C53_crash",
    "Capnpy.Props.C53_garbage"
   ],
   "note": "Follows: pure returns v => compiled returns v and ignores nothing; compiled ignores nothing => same outcome. All accessors, items, endof, dumps. Alignment (8 | offset) is needed for the except -2 clause of endof. Witnesses: C53_ignored_text, C53_ignored_list, C53_ignored_far, C53_tag_example, C53_crash (for every stack depth), C53_garbage."
  },
  {
   "property": "C54",
   "status": "proved",
   "theorems": [
    "Capnpy.Props.C54_loads",
    "Capnpy.Props.C54_loads_single",
    "Capnpy.Props.C54_load",
    "Capnpy.Props.C54_load_all",
    "Capnpy.Props.C54_top_bits",
    "Capnpy.Props.C54_stuck",
    "Capnpy.Props.C54_not_stuck",
    "Capnpy.Props.C54_count_wraps",
    "Capnpy.Props.C54_overflow",
    "Capnpy.Props.C54_truncated_accepted"
   ],
   "note": "C54_loads / C54_loads_single / C54_load / C54_load_all: same outcome under explicit size hypotheses. C54_top_bits, C54_truncated_accepted, C54_stuck (for ever, with C54_not_stuck for the pure version), C54_count_wraps, C54_overflow: what happens beyond, for all such headers."
  },
  {
   "property": "C55",
   "status": "proved",
   "theorems": [
    "Capnpy.Props.C55_same_result",
    "Capnpy.Props.C55_same_exception",
    "Capnpy.Props.C55_roundtrip",
    "Capnpy.Props.C55_two_members",
    "Capnpy.Props.C55_call",
    "Capnpy.Props.C55_new_member",
    "Capnpy.Props.C55_unknown_keyword",
    "Capnpy.Props.C55_out_of_range",
    "Capnpy.Props.C55_bool_field_given_two",
    "Capnpy.Props.C55_bool_field_given_none",
    "Capnpy.Props.C55_heap_overflow"
   ],
   "note": "C55_same_result / C55_same_exception: simulation under FieldsArgOk; C55_roundtrip, C55_two_members, C55_call, C55_new_member, C55_unknown_keyword: as C30/C31, compiled. C55_out_of_range, C55_bool_field_given_two, C55_bool_field_given_none, C55_heap_overflow: what happens otherwise."
  },
  {
   "property": "C56",
   "status": "proved",
   "theorems": [
    "Capnpy.Props.C56_typed",
    "Capnpy.Props.C56_typed_compiled",
    "Capnpy.Props.C56_int_field",
    "Capnpy.Props.C56_two_members",
    "Capnpy.Props.C56_count",
    "Capnpy.Props.C56_bool_not_checked"
   ],
   "note": "C56_typed, C56_typed_compiled: no hypothesis on the arguments; C56_int_field, C56_two_members, C56_count follow; C56_bool_not_checked: the exception."
  },
  {
   "property": "C57",
   "status": "proved",
   "theorems": [
    "Capnpy.Props.C57_stored_values",
    "Capnpy.Props.C57_compact_iff",
    "Capnpy.Props.C57_always_compact",
    "Capnpy.Props.C57_compiled",
    "Capnpy.Props.C57_group_not_compact",
    "Capnpy.Props.C57_union_not_compact",
    "Capnpy.Props.C57_empty_child_not_compact"
   ],
   "note": "C57_compact_iff (exact characterisation), C57_always_compact (schemas in slot order), C57_compiled; the doc's claim is false: C57_group_not_compact, C57_union_not_compact, C57_empty_child_not_compact."
  },
  {
   "property": "C58",
   "status": "proved",
   "theorems": [
    "Capnpy.Props.C58_tuple",
    "Capnpy.Props.C58_bad_call",
    "Capnpy.Props.C58_roundtrip",
    "Capnpy.Props.C58_which",
    "Capnpy.Props.C58_two_members",
    "Capnpy.Props.C58_two_members_never",
    "Capnpy.Props.C58_compiles",
    "Capnpy.Props.C58_nullable_none",
    "Capnpy.Props.C58_distinct_names",
    "Capnpy.Props.C58_capital_collision",
    "Capnpy.Props.C58_syntax_errors"
   ],
   "note": "C58_tuple, C58_bad_call, C58_roundtrip, C58_which, C58_two_members*, C58_distinct_names; exceptions: C58_capital_collision (convertCase=false), C58_syntax_errors."
  },
  {
   "property": "C59",
   "status": "proved",
   "theorems": [
    "Capnpy.Props.C59_parse",
    "Capnpy.Props.C59_fields",
    "Capnpy.Props.C59_reads",
    "Capnpy.Props.C59_only",
    "Capnpy.Props.C59_origin_member",
    "Capnpy.Props.C59_union_member",
    "Capnpy.Props.C59_nested",
    "Capnpy.Props.C59_not_a_parameter",
    "Capnpy.Props.C59_compiles",
    "Capnpy.Props.C59_hash_dependent",
    "Capnpy.Props.C59_unknown_name",
    "Capnpy.Props.C59_duplicate"
   ],
   "note": "C59_parse, C59_fields, C59_reads, C59_only, C59_not_a_parameter, C59_compiles (iff); exceptions: C59_union_member, C59_nested, C59_hash_dependent, C59_duplicate."
  },
  {
   "property": "C60",
   "status": "proved",
   "theorems": [
    "Capnpy.Props.C60_lines",
    "Capnpy.Props.C60_line_fails",
    "Capnpy.Props.C60_intact",
    "Capnpy.Props.C60_truncated",
    "Capnpy.Props.C60_dumped",
    "Capnpy.Props.C60_success_means_damaged",
    "Capnpy.Props.C60_terminates"
   ],
   "note": "C60_lines, C60_line_fails, C60_terminates, C60_dumped (end to end with dumps and shortrepr); findings C60_intact (EOFError at the end of every intact file), C60_truncated, C60_success_means_damaged."
  },
  {
   "property": "C61",
   "status": "proved",
   "theorems": [
    "Capnpy.Props.C61_correct",
    "Capnpy.Props.C61_no_rebuild",
    "Capnpy.Props.C61_build",
    "Capnpy.Props.C61_options_ignored",
    "Capnpy.Props.C61_imports_ignored",
    "Capnpy.Props.C61_restored_ignored",
    "Capnpy.Props.C61_race",
    "Capnpy.Props.C61_killed"
   ],
   "note": "C61_correct (invariant over histories), C61_no_rebuild; each condition is needed: C61_options_ignored, C61_imports_ignored, C61_restored_ignored, C61_race, C61_killed."
  },
  {
   "property": "C62",
   "status": "proved",
   "theorems": [
    "Capnpy.Props.C62_annotation",
    "Capnpy.Props.C62_star",
    "Capnpy.Props.C62_eq",
    "Capnpy.Props.C62_ne",
    "Capnpy.Props.C62_eq_tuple",
    "Capnpy.Props.C62_hash",
    "Capnpy.Props.C62_same_value",
    "Capnpy.Props.C62_compiled_hash",
    "Capnpy.Props.C62_no_key",
    "Capnpy.Props.C62_inactive",
    "Capnpy.Props.C62_other_class",
    "Capnpy.Props.C62_invalid_utf8",
    "Capnpy.Props.C62_unchecked_union",
    "Capnpy.Props.C62_unterminated"
   ],
   "note": "C62_annotation, C62_star; C62_eq, C62_ne, C62_eq_tuple, C62_hash, C62_same_value for the pure version; C62_compiled_hash (null unicode texts excluded: C34_null_unicode_hash); C62_no_key, C62_inactive; findings C62_other_class, C62_invalid_utf8, C62_unchecked_union, C62_unterminated."
  },
  {
   "property": "C63",
   "status": "proved",
   "theorems": [
    "Capnpy.Props.C63_made",
    "Capnpy.Props.C63_renamed",
    "Capnpy.Props.C63_new_field",
    "Capnpy.Props.C63_new_union",
    "Capnpy.Props.C63_new_reader",
    "Capnpy.Props.C63_old_reader",
    "Capnpy.Props.C63_unknown_member",
    "Capnpy.Props.C63_nested",
    "Capnpy.Props.C63_dumped",
    "Capnpy.Props.C63_incompatible",
    "Capnpy.Props.C63_list_upgrade",
    "Capnpy.Props.C63_list_downgrade"
   ],
   "note": "C63_made, C63_renamed, C63_new_field, C63_new_union, C63_new_reader, C63_old_reader, C63_unknown_member, C63_nested, C63_dumped; C63_incompatible shows that the conditions of Evolves matter; lists of non-structs changed to lists of structs are not supported (C63_list_upgrade, C63_list_downgrade). Attribute paths through nullable groups are covered only by C63_new_field."
  },
  {
   "property": "C64",
   "status": "proved",
   "theorems": [
    "Capnpy.Props.C64_objects",
    "Capnpy.Props.C64_no_sharing",
    "Capnpy.Props.C64_copies",
    "Capnpy.Props.C64_depth",
    "Capnpy.Props.C64_recursion",
    "Capnpy.Props.C64_items_bounded",
    "Capnpy.Props.C64_void_list",
    "Capnpy.Props.C64_width_ignored",
    "Capnpy.Props.C64_empty_structs",
    "Capnpy.Props.C64_amplification",
    "Capnpy.Props.C64_cycle"
   ],
   "note": "C64_objects, C64_no_sharing, C64_copies, C64_depth, C64_recursion, C64_items_bounded are the bounds; C64_amplification, C64_cycle, C64_void_list, C64_width_ignored, C64_empty_structs show what they exclude."
  },
  {
   "property": "C65",
   "status": "proved",
   "theorems": [
    "Capnpy.Props.C65_stream",
    "Capnpy.Props.C65_flushed",
    "Capnpy.Props.C65_fields",
    "Capnpy.Props.C65_retry"
   ],
   "note": "C65_stream is the main theorem (Got says what the reader gets), C65_flushed the guarantee of flush(), C65_fields the attributes; C65_retry shows what a retried flush does."
  },
  {
   "property": "C66",
   "status": "proved",
   "theorems": [
    "Capnpy.Props.C66_codec",
    "Capnpy.Props.C66_same_as_bytes",
    "Capnpy.Props.C66_read",
    "Capnpy.Props.C66_hash",
    "Capnpy.Props.C66_construct",
    "Capnpy.Props.C66_construct_typed",
    "Capnpy.Props.C66_list",
    "Capnpy.Props.C66_list_typed",
    "Capnpy.Props.C66_list_read",
    "Capnpy.Props.C66_list_iter",
    "Capnpy.Props.C66_wrong_member",
    "Capnpy.Props.C66_statement",
    "Capnpy.Props.C66_invalid"
   ],
   "note": "C66_codec: strict utf-8 both ways; C66_same_as_bytes for every object, C66_read for well-formed ones; C66_construct (round trip through the constructor, top-level fields), C66_list (nested lists), C66_list_read; C66_construct_typed and C66_list_typed: nothing else is stored."
  },
  {
   "property": "C67",
   "status": "proved",
   "theorems": [
    "Capnpy.Props.C67_load",
    "Capnpy.Props.C67_stable",
    "Capnpy.Props.C67_types",
    "Capnpy.Props.C67_import_bound",
    "Capnpy.Props.C67_imported_type",
    "Capnpy.Props.C67_shared",
    "Capnpy.Props.C67_import_name",
    "Capnpy.Props.C67_clash",
    "Capnpy.Props.C67_unused",
    "Capnpy.Props.C67_statements",
    "Capnpy.Props.C67_null_imports",
    "Capnpy.Props.C67_bad_name",
    "Capnpy.Props.C67_cycle",
    "Capnpy.Props.C67_standalone",
    "Capnpy.Props.C67_same_base",
    "Capnpy.Props.C67_two_names",
    "Capnpy.Props.C67_standalone_dot"
   ],
   "note": "C67_load, C67_stable, C67_types, C67_import_bound, C67_imported_type, C67_shared over all histories of loads of a project; C67_import_name, C67_clash (iff), C67_unused, C67_statements, C67_standalone for the generator; C67_cycle for any set of files each of which has an import in the set. Constants whose type is in another file are excluded (Supported)."
  },
  {
   "property": "C68",
   "status": "proved",
   "theorems": [
    "Capnpy.Props.C68_options",
    "Capnpy.Props.C68_emits",
    "Capnpy.Props.C68_get_reflection_data",
    "Capnpy.Props.C68_history",
    "Capnpy.Props.C68_get_node",
    "Capnpy.Props.C68_get_node_type",
    "Capnpy.Props.C68_get_node_group",
    "Capnpy.Props.C68_get_node_module",
    "Capnpy.Props.C68_get_node_annotation",
    "Capnpy.Props.C68_field_name",
    "Capnpy.Props.C68_union_tag",
    "Capnpy.Props.C68_group_attrs",
    "Capnpy.Props.C68_enumerant_name",
    "Capnpy.Props.C68_field_without_id",
    "Capnpy.Props.C68_field_of_import",
    "Capnpy.Props.C68_has_annotation",
    "Capnpy.Props.C68_get_annotation",
    "Capnpy.Props.C68_unknown_value",
    "Capnpy.Props.C68_loop_over_allnodes",
    "Capnpy.Props.C68_enum_member"
   ],
   "note": "C68_options, C68_emits, C68_get_reflection_data, C68_history, C68_get_node, C68_get_node_type/_group/_module/_annotation, C68_field_name, C68_enumerant_name, C68_union_tag, C68_group_attrs, C68_has_annotation, C68_get_annotation, C68_unknown_value; errors: C68_field_without_id, C68_field_of_import, C68_loop_over_allnodes, C68_enum_member. Requests without $Py.group; include_reflection_data is taken per file."
  },
  {
   "property": "C69",
   "status": "proved",
   "theorems": [
    "Capnpy.Props.C69_clean",
    "Capnpy.Props.C69_unchanged",
    "Capnpy.Props.C69_py_mode",
    "Capnpy.Props.C69_frame",
    "Capnpy.Props.C69_own_schema",
    "Capnpy.Props.C69_independent",
    "Capnpy.Props.C69_loader",
    "Capnpy.Props.C69_other_compilers",
    "Capnpy.Props.C69_clash_iff",
    "Capnpy.Props.C69_same_base_name_fails",
    "Capnpy.Props.C69_success_no_clash",
    "Capnpy.Props.C69_failure_leaks",
    "Capnpy.Props.C69_check_version",
    "Capnpy.Props.C69_key_error"
   ],
   "note": "Model/SysModules.lean: _compile_pyx and import_from_path with sys.modules as a map, several compilers, nested loads, modules whose code raises. Cython and the C compiler are a parameter (they raise before sys.modules is touched). Finding: a/x.capnp importing b/x.capnp gives KeyError in pyx mode at the first attempt and succeeds at the second (C69_same_base_name_fails, C69_key_error); failed loads leak entries (C69_failure_leaks)."
  },
  {
   "property": "C70",
   "status": "proved",
   "theorems": [
    "Capnpy.Props.C70_bytes_literal",
    "Capnpy.Props.C70_int_literal",
    "Capnpy.Props.C70_declare_const",
    "Capnpy.Props.C70_request",
    "Capnpy.Props.C70_struct",
    "Capnpy.Props.C70_struct_compact",
    "Capnpy.Props.C70_null_struct",
    "Capnpy.Props.C70_list",
    "Capnpy.Props.C70_null_list",
    "Capnpy.Props.C70_list_needs_reflection",
    "Capnpy.Props.C70_plain",
    "Capnpy.Props.C70_float_nonfinite",
    "Capnpy.Props.C70_any_pointer",
    "Capnpy.Props.C70_wrong_member",
    "Capnpy.Props.C70_struct_in_module",
    "Capnpy.Props.C70_struct_compact_in_module",
    "Capnpy.Props.C70_list_in_module"
   ],
   "note": "Model/PyExpr.lean: a parser for the Python expressions that occur (bytes and int literals, dotted names, calls, tuples). Model/Const.lean: Value accessors, as_pyobj, declare_const, _declare_list_const, and the evaluation of the text. Finite floats: the text is repr(float), a parameter, its evaluation is not modelled. The constants of a class body are evaluated with the names of the module (C52 says which siblings may hide them). Findings: null struct or list constant = AttributeError in the compiler; inf/nan = NameError and AnyPointer = SyntaxError at import; text constants are bytes even with unicode text."
  },
  {
   "property": "C71",
   "status": "proved",
   "theorems": [
    "Capnpy.Props.C71_item",
    "Capnpy.Props.C71_from_type",
    "Capnpy.Props.C71_same",
    "Capnpy.Props.C71_unsupported",
    "Capnpy.Props.C71_refused",
    "Capnpy.Props.C71_aliases",
    "Capnpy.Props.C71_imported",
    "Capnpy.Props.C71_nested_import_fails"
   ],
   "note": "list_item_type in both modes as text, evaluated in the environment of C52's imported module. The names of a Cython module are taken to be those of the Python module. Finding: the item type of a nested type of another file has a wrong name in Python modules (C71_nested_import_fails)."
  },
  {
   "property": "C72",
   "status": "proved",
   "theorems": [
    "Capnpy.Props.C72_extend",
    "Capnpy.Props.C72_attribute",
    "Capnpy.Props.C72_keeps",
    "Capnpy.Props.C72_docstring",
    "Capnpy.Props.C72_eq_unhashable",
    "Capnpy.Props.C72_only_structs",
    "Capnpy.Props.C72_inherited",
    "Capnpy.Props.C72_inherited_keeps",
    "Capnpy.Props.C72_special_methods",
    "Capnpy.Props.C72_python3_methods",
    "Capnpy.Props.C72_keeps_path",
    "Capnpy.Props.C72_types",
    "Capnpy.Props.C72_file",
    "Capnpy.Props.C72_search",
    "Capnpy.Props.C72_search_none",
    "Capnpy.Props.C72_neither",
    "Capnpy.Props.C72_load",
    "Capnpy.Props.C72_standalone",
    "Capnpy.Props.C72_raises",
    "Capnpy.Props.C72_nested_replaces",
    "Capnpy.Props.C72_other_directory"
   ],
   "note": "Model/Extend.lean: class statements, the dict of a new class as CPython makes it (up to 3.12), magic_setattr, extend, the search for the extension file; on the heap of Model/Module.lean. Spec/Extend.lean: After, the attributes of a class after an extension. Not modelled: CPython's attribute cache (setattr_builtin does not invalidate it), __slots__ in the body, data descriptors of type. Findings: extending Outer.Inner as `class Inner` replaces a top-level Inner (C72_nested_replaces); a standalone module can get the extension of another directory (C72_other_directory); special methods of Python 3 only (__bool__, __next__) are accepted for compiled classes although they cannot work (C72_python3_methods); docstrings are dropped."
  },
  {
   "property": "C73",
   "status": "proved",
   "theorems": [
    "Capnpy.Props.C73_dumps",
    "Capnpy.Props.C73_loads",
    "Capnpy.Props.C73_message",
    "Capnpy.Props.C73_stream",
    "Capnpy.Props.C73_accessor",
    "Capnpy.Props.C73_path",
    "Capnpy.Props.C73_list",
    "Capnpy.Props.C73_roundtrip",
    "Capnpy.Props.C73_exceptions",
    "Capnpy.Props.C73_other_member",
    "Capnpy.Props.C73_short_list",
    "Capnpy.Props.C73_tag_65535"
   ],
   "note": "Model/CyAccess.lean: the generated accessors in pyx mode, list iteration and dumps; joined with the models of C45-C47, C49, C53-C55. C73_roundtrip has no hypothesis about intermediate objects (Proof/CtorValue.lean: size and depth of a constructed object). C18_size: the length of a dumped message. Compiled loads: messages below 1 GiB (C ints). Findings: C73_short_list (pure: the list silently ends; compiled: None items, ignored exceptions), C73_tag_65535 (ValueError vs SystemError)."
  },
  {
   "property": "C74",
   "status": "proved",
   "theorems": [
    "Capnpy.Props.C74_eq",
    "Capnpy.Props.C74_hash",
    "Capnpy.Props.C74_compact",
    "Capnpy.Props.C74_tidy",
    "Capnpy.Props.C74_number_hash",
    "Capnpy.Props.C74_nan",
    "Capnpy.Props.C74_list_compiled",
    "Capnpy.Props.C74_struct_list",
    "Capnpy.Props.C74_nan_hash",
    "Capnpy.Props.C74_list_pure",
    "Capnpy.Props.C74_untidy",
    "Capnpy.Props.C74_float_lists"
   ],
   "note": "Model/KeyMore.lean: property reads with floats (IEEE 754 decoding, exact comparison, CPython's float hash) and list objects (identity). C74_eq, C74_hash, C74_number_hash, C74_nan general; C74_compact: compact() gives tidy messages. Findings: C74_list_pure and C74_list_compiled (lists in keys: hash by identity / not hashable), C74_struct_list (== raises), C74_nan_hash, C74_untidy (padding counts in list comparison), C74_float_lists (lists of floats are compared bytewise). Lists of enums, structs and lists have no key in the specification."
  },
  {
   "property": "C75",
   "status": "proved",
   "theorems": [
    "Capnpy.Props.C75_options",
    "Capnpy.Props.C75_head",
    "Capnpy.Props.C75_text",
    "Capnpy.Props.C75_known",
    "Capnpy.Props.C75_cli",
    "Capnpy.Props.C75_cli_bad",
    "Capnpy.Props.C75_cli_final",
    "Capnpy.Props.C75_setup",
    "Capnpy.Props.C75_glob",
    "Capnpy.Props.C75_no_pyx",
    "Capnpy.Props.C75_warnings",
    "Capnpy.Props.C75_unknown",
    "Capnpy.Props.C75_import",
    "Capnpy.Props.C75_version_check_annotation",
    "Capnpy.Props.C75_pop",
    "Capnpy.Props.C75_pop_twice"
   ],
   "note": "Model/OptionFlow.lean on top of Model/Options.lean (C36) and Model/SysModules.lean (check_version). C75_options, C75_head, C75_text for every caller; C75_cli, C75_setup say what the callers give. Trusted: docopt, setuptools calling the two entry points. Findings: C75_version_check_annotation ($Py.options(versionCheck=false) in the file is ignored by the version check), C75_pop/C75_pop_twice (capnpy_schemas removes 'pyx' from the user's dictionary), and an unknown enumerant of textType is NotImplementedError (C75_text)."
  },
  {
   "property": "C76",
   "status": "proved",
   "theorems": [
    "Capnpy.Props.C76_compiles",
    "Capnpy.Props.C76_reads",
    "Capnpy.Props.C76_same_getter",
    "Capnpy.Props.C76_same_setter",
    "Capnpy.Props.C76_writes",
    "Capnpy.Props.C76_setter_compiles",
    "Capnpy.Props.C76_in_module",
    "Capnpy.Props.C76_default_rejected",
    "Capnpy.Props.C76_interface_rejected",
    "Capnpy.Props.C76_float_default",
    "Capnpy.Props.C76_float_default_ctor",
    "Capnpy.Props.C76_old_capnp"
   ],
   "note": "Model/FieldEmit.lean: the choice of offsets, formats and methods from the type; Spec/FieldEmit.lean gives the places as bits of the sections. C76_reads, C76_writes: places, values, frame, round trip; C76_same_getter/C76_same_setter: what is emitted is what Model/Ctor.lean runs, so C30, C31, \u2026 hold for it; C76_in_module: item types and class names in the imported module; C76_compiles, C76_setter_compiles. Findings: C76_float_default (float fields with a non-zero default compile, but cannot be read), C76_float_default_ctor (nor written), C76_default_rejected, C76_interface_rejected, C76_old_capnp."
  },
  {
   "property": "C77",
   "status": "proved",
   "theorems": [
    "Capnpy.Props.C77_schema",
    "Capnpy.Props.C77_schema_unique",
    "Capnpy.Props.C77_constructor",
    "Capnpy.Props.C77_properties",
    "Capnpy.Props.C77_roundtrip",
    "Capnpy.Props.C77_accepts",
    "Capnpy.Props.C77_nullable_check",
    "Capnpy.Props.C77_void_group_rejected",
    "Capnpy.Props.C77_nullable_three",
    "Capnpy.Props.C77_nullable_slot",
    "Capnpy.Props.C77_nullable_camel",
    "Capnpy.Props.C77_nullable_union"
   ],
   "note": "Model/StructEmit.lean: the tree of fields, the emitted statements of __new and the emitted properties, run on frames and objects; Spec/StructEmit.lean: which nodes describe which tree of fields (Schema of Model/Ctor.lean). C77_constructor and C77_properties: equal to Schema.construct and getAttr, for all arguments and objects; C77_schema, C77_schema_unique: the nodes describe exactly one schema; C77_roundtrip; C77_accepts, C77_nullable_check: when there is a constructor / a property. Findings: C77_void_group_rejected, C77_nullable_three (TypeError instead of the message), C77_nullable_slot, C77_nullable_camel (nullable groups need convertCase), C77_nullable_union."
  },
  {
   "property": "C78",
   "status": "proved",
   "theorems": [
    "Capnpy.Props.C78_new_member",
    "Capnpy.Props.C78_roundtrip",
    "Capnpy.Props.C78_nested_forced"
   ],
   "note": "Model/StructEmit.lean emitNewMember, NewMember.call: keyword calls of new_foo and __new. C78_new_member: equal to Schema.newMember (Model/Ctor.lean) for all keyword arguments; C78_roundtrip: with C31_new_member and C77_properties. Finding: C78_nested_forced (a field of a group with the name and place of the member is forced, too: A.new_x() selects a member of the union of a group)."
  },
  {
   "property": "C79",
   "status": "proved",
   "theorems": [
    "Capnpy.Props.C79_emits",
    "Capnpy.Props.C79_shortrepr",
    "Capnpy.Props.C79_parse",
    "Capnpy.Props.C79_same_text",
    "Capnpy.Props.C79_is",
    "Capnpy.Props.C79_has",
    "Capnpy.Props.C79_name_clash"
   ],
   "note": "Model/ReprEmit.lean emitReprClass: the emitted properties, is_/has_ methods and the lines of shortrepr, looked up by name (the last definition counts), and run. C79_emits, C79_shortrepr: equal to the generic shortrepr of C50 for every object and depth; C79_parse, C79_same_text: C50's guarantees for the emitted class; C79_is, C79_has. Hypotheses (ReprOK): fields without a default for pointers, distinct names of the attributes, classes found by their names. Finding: C79_name_clash (a field hasFoo next to a pointer field foo: shortrepr raises TypeError). Not modelled: the text of the emitted lines; fields of types without a repr."
  },
  {
   "property": "C80",
   "status": "proved",
   "theorems": [
    "Capnpy.Props.C80_emits",
    "Capnpy.Props.C80_members",
    "Capnpy.Props.C80_which",
    "Capnpy.Props.C80_newer",
    "Capnpy.Props.C80_tag_attribute",
    "Capnpy.Props.C80_member_called_name"
   ],
   "note": "Model/TagEmit.lean: emitTag (the items of __tag__, with a missing one being an error at import), which, whichStr. C80_emits, C80_members, C80_which, C80_newer, C80_tag_attribute; a member called `name` is excluded, because then str(which()) raises TypeError (C80_member_called_name). Tags of 2^15 and more are negative (C35_negative_value)."
  }
 ]
}