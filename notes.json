{
 "C15": {
  "note": "Exact characterisation (iff). The unconditional claim of the docs is false: C15_compact_not_compact."
 },
 "C17": {
  "note": "Complete case analysis of the fast path; the plain round trip is false for empty structs (C17_empty_struct_lost) and unpadded buffers (C17_unpadded_buffer)."
 },
 "C25": {
  "note": "All histories, all partial failures. Bytes sent by a failing sendall are sent again by the retry: C25_retry_duplicates."
 },
 "C29": {
  "note": "The claim for arbitrary lists is false in both directions: C29_false_positive, C29_false_negative, C29_padding_garbage, C29_nested_never_equal, C29_null_is_not_empty."
 },
 "C35": {
  "note": "Negative values are Python negative indices (C35_negative_value); a member called 'name' shadows the property (C35_member_called_name)."
 },
 "C43": {
  "note": "A query between two registrations does change later answers: C43_query_between_registers."
 },
 "C45": {
  "note": "Simulation for every source without reachable pointers to before its start; the other sources: C45_negative_position, C45_heap_overflow, C45_large_list."
 },
 "C46": {
  "note": "Exact on every word for the accessors; constructors modulo 2^64, exact when the Python result fits an int64; C46_sign_differs otherwise."
 },
 "C47": {
  "note": "Agreement on the stated ranges; C47_unpack_overflow, C47_pack_into_differs and C47_message_header_negative say what happens outside."
 },
 "C48": {
  "note": "Exact for every list of item hashes, against an independent specification of CPython's algorithms (Spec/Hash.lean)."
 },
 "C49": {
  "note": "Simulation for all items; C49_heap_overflow and C49_out_of_range show where the versions differ."
 },
 "C50": {
  "note": "The text depends only on the value (C50_same_text, C50_compact); it parses, in an independent grammar, to the value's tree (C50_parse, C50_injective); integers print in decimal (C50_decimal); Data literals are faithful for all bytes (C50_data_literal) and Text literals if there is no backslash or newline (C50_text_literal). Witnesses for what is not true: C50_backslash_wrong, C50_backslash_unreadable, C50_null_text_item, C50_data_item_binary, C50_enum_item, C50_nullable_member. The repr of floats is a parameter."
 },
 "C51": {
  "note": "Names for every node of every file of the tree specification (Sub, dotted, under); injectivity of the class names; names of imported types (Chain); tag members. FileOK states what the Cap'n Proto compiler guarantees; a concrete file meets it (exFile_ok)."
 },
 "C52": {
  "note": "The generator emits statements, an interpreter runs them; the result is characterised for all FileOK and Supported files, including the accessors (C52_accessors) and annotation classes (C52_annotation). Witnesses for the exceptions: C52_group_hides_type, C52_const_wrong_class, C52_nested_list_const, C52_list_const_reflection, C52_empty_enum, C52_annotations_collide, C52_interface, C52_imported_nested_item. Not modelled: $Py.group fake nodes, bodies of methods, pyx mode."
 },
 "C53": {
  "note": "Follows: pure returns v => compiled returns v and ignores nothing; compiled ignores nothing => same outcome. All accessors, items, endof, dumps. Alignment (8 | offset) is needed for the except -2 clause of endof. Witnesses: C53_ignored_text, C53_ignored_list, C53_ignored_far, C53_tag_example, C53_crash (for every stack depth), C53_garbage."
 },
 "C54": {
  "note": "C54_loads / C54_loads_single / C54_load / C54_load_all: same outcome under explicit size hypotheses. C54_top_bits, C54_truncated_accepted, C54_stuck (for ever, with C54_not_stuck for the pure version), C54_count_wraps, C54_overflow: what happens beyond, for all such headers."
 },
 "C55": {
  "note": "C55_same_result / C55_same_exception: simulation under FieldsArgOk; C55_roundtrip, C55_two_members, C55_call, C55_new_member, C55_unknown_keyword: as C30/C31, compiled. C55_out_of_range, C55_bool_field_given_two, C55_bool_field_given_none, C55_heap_overflow: what happens otherwise."
 },
 "C56": {
  "note": "C56_typed, C56_typed_compiled: no hypothesis on the arguments; C56_int_field, C56_two_members, C56_count follow; C56_bool_not_checked: the exception."
 },
 "C57": {
  "note": "C57_compact_iff (exact characterisation), C57_always_compact (schemas in slot order), C57_compiled; the doc's claim is false: C57_group_not_compact, C57_union_not_compact, C57_empty_child_not_compact."
 },
 "C58": {
  "note": "C58_tuple, C58_bad_call, C58_roundtrip, C58_which, C58_two_members*, C58_distinct_names; exceptions: C58_capital_collision (convertCase=false), C58_syntax_errors."
 },
 "C59": {
  "note": "C59_parse, C59_fields, C59_reads, C59_only, C59_not_a_parameter, C59_compiles (iff); exceptions: C59_union_member, C59_nested, C59_hash_dependent, C59_duplicate."
 },
 "C60": {
  "note": "C60_lines, C60_line_fails, C60_terminates, C60_dumped (end to end with dumps and shortrepr); findings C60_intact (EOFError at the end of every intact file), C60_truncated, C60_success_means_damaged."
 },
 "C61": {
  "note": "C61_correct (invariant over histories), C61_no_rebuild; each condition is needed: C61_options_ignored, C61_imports_ignored, C61_restored_ignored, C61_race, C61_killed."
 },
 "C62": {
  "note": "C62_annotation, C62_star; C62_eq, C62_ne, C62_eq_tuple, C62_hash, C62_same_value for the pure version; C62_compiled_hash (null unicode texts excluded: C34_null_unicode_hash); C62_no_key, C62_inactive; findings C62_other_class, C62_invalid_utf8, C62_unchecked_union, C62_unterminated."
 },
 "C63": {
  "note": "C63_made, C63_renamed, C63_new_field, C63_new_union, C63_new_reader, C63_old_reader, C63_unknown_member, C63_nested, C63_dumped; C63_incompatible shows that the conditions of Evolves matter; lists of non-structs changed to lists of structs are not supported (C63_list_upgrade, C63_list_downgrade). Attribute paths through nullable groups are covered only by C63_new_field."
 },
 "C64": {
  "note": "C64_objects, C64_no_sharing, C64_copies, C64_depth, C64_recursion, C64_items_bounded are the bounds; C64_amplification, C64_cycle, C64_void_list, C64_width_ignored, C64_empty_structs show what they exclude."
 },
 "C65": {
  "note": "C65_stream is the main theorem (Got says what the reader gets), C65_flushed the guarantee of flush(), C65_fields the attributes; C65_retry shows what a retried flush does."
 },
 "C66": {
  "note": "C66_codec: strict utf-8 both ways; C66_same_as_bytes for every object, C66_read for well-formed ones; C66_construct (round trip through the constructor, top-level fields), C66_list (nested lists), C66_list_read; C66_construct_typed and C66_list_typed: nothing else is stored."
 },
 "C67": {
  "note": "C67_load, C67_stable, C67_types, C67_import_bound, C67_imported_type, C67_shared over all histories of loads of a project; C67_import_name, C67_clash (iff), C67_unused, C67_statements, C67_standalone for the generator; C67_cycle for any set of files each of which has an import in the set. Constants whose type is in another file are excluded (Supported)."
 },
 "C68": {
  "note": "C68_options, C68_emits, C68_get_reflection_data, C68_history, C68_get_node, C68_get_node_type/_group/_module/_annotation, C68_field_name, C68_enumerant_name, C68_union_tag, C68_group_attrs, C68_has_annotation, C68_get_annotation, C68_unknown_value; errors: C68_field_without_id, C68_field_of_import, C68_loop_over_allnodes, C68_enum_member. Requests without $Py.group; include_reflection_data is taken per file."
 },
 "C69": {
  "note": "Model/SysModules.lean: _compile_pyx and import_from_path with sys.modules as a map, several compilers, nested loads, modules whose code raises. Cython and the C compiler are a parameter (they raise before sys.modules is touched). Finding: a/x.capnp importing b/x.capnp gives KeyError in pyx mode at the first attempt and succeeds at the second (C69_same_base_name_fails, C69_key_error); failed loads leak entries (C69_failure_leaks)."
 },
 "C70": {
  "note": "Model/PyExpr.lean: a parser for the Python expressions that occur (bytes and int literals, dotted names, calls, tuples). Model/Const.lean: Value accessors, as_pyobj, declare_const, _declare_list_const, and the evaluation of the text. Finite floats: the text is repr(float), a parameter, its evaluation is not modelled. The constants of a class body are evaluated with the names of the module (C52 says which siblings may hide them). Findings: null struct or list constant = AttributeError in the compiler; inf/nan = NameError and AnyPointer = SyntaxError at import; text constants are bytes even with unicode text."
 },
 "C71": {
  "note": "list_item_type in both modes as text, evaluated in the environment of C52's imported module. The names of a Cython module are taken to be those of the Python module. Finding: the item type of a nested type of another file has a wrong name in Python modules (C71_nested_import_fails)."
 },
 "C72": {
  "note": "Model/Extend.lean: class statements, the dict of a new class as CPython makes it (up to 3.12), magic_setattr, extend, the search for the extension file; on the heap of Model/Module.lean. Spec/Extend.lean: After, the attributes of a class after an extension. Not modelled: CPython's attribute cache (setattr_builtin does not invalidate it), __slots__ in the body, data descriptors of type. Findings: extending Outer.Inner as `class Inner` replaces a top-level Inner (C72_nested_replaces); a standalone module can get the extension of another directory (C72_other_directory); special methods of Python 3 only (__bool__, __next__) are accepted for compiled classes although they cannot work (C72_python3_methods); docstrings are dropped."
 },
 "C73": {
  "note": "Model/CyAccess.lean: the generated accessors in pyx mode, list iteration and dumps; joined with the models of C45-C47, C49, C53-C55. C73_roundtrip has no hypothesis about intermediate objects (Proof/CtorValue.lean: size and depth of a constructed object). C18_size: the length of a dumped message. Compiled loads: messages below 1 GiB (C ints). Findings: C73_short_list (pure: the list silently ends; compiled: None items, ignored exceptions), C73_tag_65535 (ValueError vs SystemError)."
 },
 "C74": {
  "note": "Model/KeyMore.lean: property reads with floats (IEEE 754 decoding, exact comparison, CPython's float hash) and list objects (identity). C74_eq, C74_hash, C74_number_hash, C74_nan general; C74_compact: compact() gives tidy messages. Findings: C74_list_pure and C74_list_compiled (lists in keys: hash by identity / not hashable), C74_struct_list (== raises), C74_nan_hash, C74_untidy (padding counts in list comparison), C74_float_lists (lists of floats are compared bytewise). Lists of enums, structs and lists have no key in the specification."
 },
 "C75": {
  "note": "Model/OptionFlow.lean on top of Model/Options.lean (C36) and Model/SysModules.lean (check_version). C75_options, C75_head, C75_text for every caller; C75_cli, C75_setup say what the callers give. Trusted: docopt, setuptools calling the two entry points. Findings: C75_version_check_annotation ($Py.options(versionCheck=false) in the file is ignored by the version check), C75_pop/C75_pop_twice (capnpy_schemas removes 'pyx' from the user's dictionary), and an unknown enumerant of textType is NotImplementedError (C75_text)."
 },
 "C76": {
  "note": "Model/FieldEmit.lean: the choice of offsets, formats and methods from the type; Spec/FieldEmit.lean gives the places as bits of the sections. C76_reads, C76_writes: places, values, frame, round trip; C76_same_getter/C76_same_setter: what is emitted is what Model/Ctor.lean runs, so C30, C31, \u2026 hold for it; C76_in_module: item types and class names in the imported module; C76_compiles, C76_setter_compiles. Findings: C76_float_default (float fields with a non-zero default compile, but cannot be read), C76_float_default_ctor (nor written), C76_default_rejected, C76_interface_rejected, C76_old_capnp."
 },
 "C77": {
  "note": "Model/StructEmit.lean: the tree of fields, the emitted statements of __new and the emitted properties, run on frames and objects; Spec/StructEmit.lean: which nodes describe which tree of fields (Schema of Model/Ctor.lean). C77_constructor and C77_properties: equal to Schema.construct and getAttr, for all arguments and objects; C77_schema, C77_schema_unique: the nodes describe exactly one schema; C77_roundtrip; C77_accepts, C77_nullable_check: when there is a constructor / a property. Findings: C77_void_group_rejected, C77_nullable_three (TypeError instead of the message), C77_nullable_slot, C77_nullable_camel (nullable groups need convertCase), C77_nullable_union."
 },
 "C78": {
  "note": "Model/StructEmit.lean emitNewMember, NewMember.call: keyword calls of new_foo and __new. C78_new_member: equal to Schema.newMember (Model/Ctor.lean) for all keyword arguments; C78_roundtrip: with C31_new_member and C77_properties. Finding: C78_nested_forced (a field of a group with the name and place of the member is forced, too: A.new_x() selects a member of the union of a group)."
 },
 "C79": {
  "note": "Model/ReprEmit.lean emitReprClass: the emitted properties, is_/has_ methods and the lines of shortrepr, looked up by name (the last definition counts), and run. C79_emits, C79_shortrepr: equal to the generic shortrepr of C50 for every object and depth; C79_parse, C79_same_text: C50's guarantees for the emitted class; C79_is, C79_has. Hypotheses (ReprOK): fields without a default for pointers, distinct names of the attributes, classes found by their names. Finding: C79_name_clash (a field hasFoo next to a pointer field foo: shortrepr raises TypeError). Not modelled: the text of the emitted lines; fields of types without a repr."
 },
 "C80": {
  "note": "Model/TagEmit.lean: emitTag (the items of __tag__, with a missing one being an error at import), which, whichStr. C80_emits, C80_members, C80_which, C80_newer, C80_tag_attribute; a member called `name` is excluded, because then str(which()) raises TypeError (C80_member_called_name). Tags of 2^15 and more are negative (C35_negative_value)."
 }
}