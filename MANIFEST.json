{
 "claims": [
  {
   "property": "C01",
   "status": "proved",
   "theorems": [
    "TPB.Props.C01_tokenize_total",
    "TPB.Props.C01_cursor"
   ],
   "note": ""
  },
  {
   "property": "C02",
   "status": "proved",
   "theorems": [
    "TPB.Props.C02_layout_tokenizes",
    "TPB.Props.C02_layout_insensitive",
    "TPB.Props.C02_source_text"
   ],
   "note": ""
  },
  {
   "property": "C03",
   "status": "proved",
   "theorems": [
    "TPB.Props.C03_word"
   ],
   "note": ""
  },
  {
   "property": "C04",
   "status": "partial",
   "theorems": [
    "TPB.Props.C04_string_literal_partial",
    "TPB.Props.C04_string_literal_bytes",
    "TPB.Props.C04_string_literal_exact_iff",
    "TPB.Props.C04_string_literals_not_exact"
   ],
   "note": "False as stated: non-ASCII contents are read byte by byte. Proved for ASCII, with an exact iff and a refutation of the full statement."
  },
  {
   "property": "C05",
   "status": "proved",
   "theorems": [
    "TPB.Props.C05_decimal",
    "TPB.Props.C05_hexadecimal"
   ],
   "note": ""
  },
  {
   "property": "C06",
   "status": "partial",
   "theorems": [
    "TPB.Props.C06_block_comment_partial",
    "TPB.Props.C06_star_free_partial",
    "TPB.Props.C06_block_comment_closes_iff",
    "TPB.Props.C06_block_comments_not_closed",
    "TPB.Props.C06_more_failures"
   ],
   "note": "False as stated (e.g. a comment ending in **/ is not closed). Proved for an exact class of bodies."
  },
  {
   "property": "C07",
   "status": "proved",
   "theorems": [
    "TPB.Props.C07_line_comment",
    "TPB.Props.C07_line_comment_eof"
   ],
   "note": ""
  },
  {
   "property": "C08",
   "status": "proved",
   "theorems": [
    "TPB.Props.C08_parse_total",
    "TPB.Props.C08_parse_source_total"
   ],
   "note": ""
  },
  {
   "property": "C09",
   "status": "proved",
   "theorems": [
    "TPB.Props.C09_accepts",
    "TPB.Props.C09_every_schema",
    "TPB.Props.C09_results_wellformed",
    "TPB.Props.C09_unambiguous"
   ],
   "note": ""
  },
  {
   "property": "C10",
   "status": "proved",
   "theorems": [
    "TPB.Props.C10_text_round_trip",
    "TPB.Props.C10_every_schema_has_text"
   ],
   "note": ""
  },
  {
   "property": "C11",
   "status": "partial",
   "theorems": [
    "TPB.Props.C11_only_grammar_partial",
    "TPB.Props.C11_accepted_iff",
    "TPB.Props.C11_grammar_balances",
    "TPB.Props.C11_open_bracket_accepted",
    "TPB.Props.C11_unclosed_group_accepted"
   ],
   "note": "False as stated: two lenient productions are accepted. Exact description of what is accepted, and the full claim for balanced brackets."
  },
  {
   "property": "C12",
   "status": "proved",
   "theorems": [
    "TPB.Props.C12_append",
    "TPB.Props.C12_earlier_unchanged",
    "TPB.Props.C12_append_text"
   ],
   "note": ""
  },
  {
   "property": "C13",
   "status": "proved",
   "theorems": [
    "TPB.Props.C13_addresses",
    "TPB.Props.C13_unique"
   ],
   "note": ""
  },
  {
   "property": "C14",
   "status": "partial",
   "theorems": [
    "TPB.Props.C14_unnumbered_fields",
    "TPB.Props.C14_numbered_fields_partial",
    "TPB.Props.C14_unnumbered_variants",
    "TPB.Props.C14_numbered_variants_partial",
    "TPB.Props.C14_number_exact_iff",
    "TPB.Props.C14_numbers_not_exact"
   ],
   "note": "False for written numbers from 2^32 on (they are reduced modulo 2^32); proved for all others."
  },
  {
   "property": "C15",
   "status": "proved",
   "theorems": [
    "TPB.Props.C15_first_variant"
   ],
   "note": ""
  },
  {
   "property": "C16",
   "status": "proved",
   "theorems": [
    "TPB.Props.C16_types",
    "TPB.Props.C16_names",
    "TPB.Props.C16_generic"
   ],
   "note": ""
  },
  {
   "property": "C17",
   "status": "proved",
   "theorems": [
    "TPB.Props.C17_rust",
    "TPB.Props.C17_dart",
    "TPB.Props.C17_kotlin_models",
    "TPB.Props.C17_swift_models",
    "TPB.Props.C17_kotlin_consts",
    "TPB.Props.C17_swift_consts"
   ],
   "note": "Exact conditions under which each generator succeeds; none of them mentions the size of a type."
  },
  {
   "property": "C18",
   "status": "proved",
   "theorems": [
    "TPB.Props.C18_value",
    "TPB.Props.C18_group_values",
    "TPB.Props.C18_group_value",
    "TPB.Props.C18_others_do_not_matter"
   ],
   "note": ""
  },
  {
   "property": "C19",
   "status": "proved",
   "theorems": [
    "TPB.Props.C19_struct_round_trip",
    "TPB.Props.C19_round_trip"
   ],
   "note": ""
  },
  {
   "property": "C20",
   "status": "partial",
   "theorems": [
    "TPB.Props.C20_enum_round_trip_partial",
    "TPB.Props.C20_duplicate_numbers_do_not_round_trip",
    "TPB.Props.C20_writer_name_clash"
   ],
   "note": "False as stated: two variants may have the same number, and a variant field may be called bytes_writer. Proved for all other schemas."
  },
  {
   "property": "C21",
   "status": "proved",
   "theorems": [
    "TPB.Props.C21_skip",
    "TPB.Props.C21_skip_values"
   ],
   "note": ""
  },
  {
   "property": "C22",
   "status": "proved",
   "theorems": [
    "TPB.Props.C22_layout",
    "TPB.Props.C22_struct_layout",
    "TPB.Props.C22_enum_layout",
    "TPB.Props.C22_list_layout"
   ],
   "note": "Layout written by the emitted Rust code; the Dart side is in C25/C29."
  },
  {
   "property": "C23",
   "status": "proved",
   "theorems": [
    "TPB.Props.C23_rust_unknown_tag",
    "TPB.Props.C23_rust_undeclared_number",
    "TPB.Props.C23_dart_unknown_tag",
    "TPB.Props.C23_dart_undeclared_number"
   ],
   "note": ""
  },
  {
   "property": "C24",
   "status": "proved",
   "theorems": [
    "TPB.Props.C24_self_delimiting",
    "TPB.Props.C24_sequences"
   ],
   "note": ""
  },
  {
   "property": "C25",
   "status": "partial",
   "theorems": [
    "TPB.Props.C25_round_trip_partial",
    "TPB.Props.C25_objects_partial",
    "TPB.Props.C25_endless",
    "TPB.Props.C25_recursive_enum",
    "TPB.Props.C25_layout",
    "TPB.Props.C25_object_represents_one_value",
    "TPB.Props.C25_duplicate_numbers_do_not_round_trip",
    "TPB.Props.C25_reader_name_clash"
   ],
   "note": "False as stated: two variants may have the same number, a field may be called reader, and values of an enum that contains itself are never read. Proved for all schemas whose Dart names can be told apart, with distinct 31-bit variant numbers: every object that exists survives (C25_objects_partial), and every value of a type with a default object."
  },
  {
   "property": "C26",
   "status": "partial",
   "theorems": [
    "TPB.Props.C26_emplace_overwrites_partial",
    "TPB.Props.C26_objects_partial",
    "TPB.Props.C26_representations_are_objects"
   ],
   "note": "Proved for the same schemas as C25; the previous contents are arbitrary."
  },
  {
   "property": "C27",
   "status": "proved",
   "theorems": [
    "TPB.Props.C27_codecs_agree",
    "TPB.Props.C27_classes_agree"
   ],
   "note": "For schemas whose Dart names can be told apart (others are rejected by the Dart compiler). That the two library codecs of an external type write the same bytes is assumed."
  },
  {
   "property": "C28",
   "status": "partial",
   "theorems": [
    "TPB.Props.C28_skip_partial",
    "TPB.Props.C28_walks",
    "TPB.Props.C28_one_value_iff",
    "TPB.Props.C28_count",
    "TPB.Props.C28_count_ignored",
    "TPB.Props.C28_two_values_not_skipped",
    "TPB.Props.C28_one_value_not_skipped"
   ],
   "note": "False as stated: fields whose type is given by a name are skipped once, before all other fields. Proved where that order and count are right; for every order and count, what is passed over instead, and exactly when that is one value. Structs whose fields all have types given by names ignore the count (C28_count_ignored)."
  },
  {
   "property": "C29",
   "status": "partial",
   "theorems": [
    "TPB.Props.C29_rust_to_dart_partial",
    "TPB.Props.C29_dart_to_rust_partial",
    "TPB.Props.C29_same_value_partial",
    "TPB.Props.C29_chars_never_seen",
    "TPB.Props.C29_large_numbers_never_seen",
    "TPB.Props.C29_large_number_example",
    "TPB.Props.C29_integer_lists_do_not_agree"
   ],
   "note": "False for char, lists of built-in types, variant numbers from 2^31 on and large unsigned integers. Proved for all other types, with the exact change of unsigned integers."
  },
  {
   "property": "C30",
   "status": "partial",
   "theorems": [
    "TPB.Props.C30_lower_half_partial",
    "TPB.Props.C30_upper_half_is_negative",
    "TPB.Props.C30_upper_half_never_seen"
   ],
   "note": "False for the upper half of the range (proved), true for the lower half (proved)."
  },
  {
   "property": "C31",
   "status": "proved",
   "theorems": [
    "TPB.Props.C31_addresses_agree",
    "TPB.Props.C31_rust_registration"
   ],
   "note": "Scope, addresses, groups and buffers of both emitted sides."
  },
  {
   "property": "C32",
   "status": "proved",
   "theorems": [
    "TPB.Props.C32_sync_call",
    "TPB.Props.C32_client_call_partial"
   ],
   "note": "C32_sync_call: the client buffer then begins with exactly the encoded result, all types. C32_client_call_partial: the whole call through the emitted Dart client, only for methods whose types both sides encode alike (see C29)."
  },
  {
   "property": "C33",
   "status": "proved",
   "theorems": [
    "TPB.Props.C33_sync_exactly_once",
    "TPB.Props.C33_async_exactly_once",
    "TPB.Props.C33_at_most_once_per_request"
   ],
   "note": ""
  },
  {
   "property": "C34",
   "status": "proved",
   "theorems": [
    "TPB.Props.C34_client_answer",
    "TPB.Props.C34_answers_match_requests",
    "TPB.Props.C34_calls_completed"
   ],
   "note": "C34_client_answer: emitted Dart client, all types, any client state. C34_answers_match_requests: emitted Rust server, all types, any history. C34_calls_completed: both together, any history, for methods whose types both sides encode alike (see C29)."
  },
  {
   "property": "C35",
   "status": "partial",
   "theorems": [
    "TPB.Props.C35_delivered_partial",
    "TPB.Props.C35_overwritten",
    "TPB.Props.C35_answer_is_lost"
   ],
   "note": "False: an answer is overwritten by the next one if the client has not polled in between (witness, and for every schema: a call whose answer is not in the buffer when the server is done is never completed). Proved: an answer that is in the buffer when the client polls completes its call."
  },
  {
   "property": "C36",
   "status": "proved",
   "theorems": [
    "TPB.Props.C36_one_read_in_flight"
   ],
   "note": ""
  },
  {
   "property": "C37",
   "status": "partial",
   "theorems": [
    "TPB.Props.C37_next_poll_starts_again_partial",
    "TPB.Props.C37_read_without_result_blocks"
   ],
   "note": "False if a call yields nothing: the method stays busy forever (proved). Proved for all other histories."
  },
  {
   "property": "C38",
   "status": "proved",
   "theorems": [
    "TPB.Props.C38_rust_sections",
    "TPB.Props.C38_rust_models_off",
    "TPB.Props.C38_rust_buffers_off",
    "TPB.Props.C38_rust_rpc_off",
    "TPB.Props.C38_rust_failures",
    "TPB.Props.C38_dart_sections",
    "TPB.Props.C38_dart_models_off",
    "TPB.Props.C38_dart_buffers_off",
    "TPB.Props.C38_dart_rpc_off",
    "TPB.Props.C38_dart_failures"
   ],
   "note": ""
  },
  {
   "property": "C39",
   "status": "proved",
   "theorems": [
    "TPB.Props.C39_rust_single_newline",
    "TPB.Props.C39_dart_single_newline"
   ],
   "note": ""
  },
  {
   "property": "C40",
   "status": "partial",
   "theorems": [
    "TPB.Props.C40_rust_partial",
    "TPB.Props.C40_rust_whole_float",
    "TPB.Props.C40_dart_partial",
    "TPB.Props.C40_dart_members",
    "TPB.Props.C40_rust_file_partial",
    "TPB.Props.C40_dart_file_partial"
   ],
   "note": "False for Rust: a float constant with a whole value is printed as an integer literal (proved). Proved for the rest by reading the generated text back with an independent reader: same constants, order, modules, types, values, any depth, also in the whole file with any sections switched off. Missing: whole floats (Rust), strings of C41, literals with a sign or an exponent (C92), Dart name clashes; float printing is external."
  },
  {
   "property": "C41",
   "status": "partial",
   "theorems": [
    "TPB.Props.C41_rust_iff_partial",
    "TPB.Props.C41_dart_iff_partial",
    "TPB.Props.C41_rust_backslash",
    "TPB.Props.C41_dart_dollar"
   ],
   "note": "False: backslashes (both), dollar signs and line breaks (Dart) and carriage returns are not escaped (proved). The theorems say exactly which strings are intact."
  },
  {
   "property": "C42",
   "status": "partial",
   "theorems": [
    "TPB.Props.C42_clash",
    "TPB.Props.C42_iff_partial",
    "TPB.Props.C42_capitalised_partial",
    "TPB.Props.C42_small_names_partial"
   ],
   "note": "False: a{bC} and aB{c} give the same class name (proved). The exact condition is proved, and that it is met by names that become capitalised words."
  },
  {
   "property": "C43",
   "status": "partial",
   "theorems": [
    "TPB.Props.C43_kotlin",
    "TPB.Props.C43_kotlin_distinct",
    "TPB.Props.C43_swift_partial",
    "TPB.Props.C43_swift_char",
    "TPB.Props.C43_swift_distinct"
   ],
   "note": "False for char in Swift, which is emitted as char (proved). Proved for everything else."
  },
  {
   "property": "C44",
   "status": "partial",
   "theorems": [
    "TPB.Props.C44_kotlin_partial",
    "TPB.Props.C44_swift_partial",
    "TPB.Props.C44_kotlin_iff",
    "TPB.Props.C44_swift_iff",
    "TPB.Props.C44_kotlin_type",
    "TPB.Props.C44_kotlin_field",
    "TPB.Props.C44_swift_type"
   ],
   "note": "Proved when the names are already in the case that the generators give them; refuted otherwise (struct my_type, variant field my_field). Exact for accepted schemas whose names satisfy the readability conditions of C84 and C85: read back, declared and used names agree if and only if the names are in that case and no struct or enum is called like an address type (Swift: provided that Pascal case does not turn such a name into UInt64)."
  },
  {
   "property": "C45",
   "status": "proved",
   "theorems": [
    "TPB.Props.C45_kotlin",
    "TPB.Props.C45_swift",
    "TPB.Props.C45_lists"
   ],
   "note": ""
  },
  {
   "property": "C46",
   "status": "partial",
   "theorems": [
    "TPB.Props.C46_default_partial",
    "TPB.Props.C46_enum_first_variant_partial",
    "TPB.Props.C46_struct_fields_partial",
    "TPB.Props.C46_char_field"
   ],
   "note": "False for char fields (the literal 0 is emitted, which is not a char). Proved exactly (iff) for all other schemas whose names do not clash."
  },
  {
   "property": "C47",
   "status": "proved",
   "theorems": [
    "TPB.Props.C47_rejected",
    "TPB.Props.C47_read_failure",
    "TPB.Props.C47_panic",
    "TPB.Props.C47_success"
   ],
   "note": "Every moment of every run of the modelled program, whatever the system answers to each call."
  },
  {
   "property": "C48",
   "status": "proved",
   "theorems": [
    "TPB.Props.C48_batch",
    "TPB.Props.C48_any_moment",
    "TPB.Props.C48_written",
    "TPB.Props.C48_other_files"
   ],
   "note": ""
  },
  {
   "property": "C49",
   "status": "partial",
   "theorems": [
    "TPB.Props.C49_prefix_partial",
    "TPB.Props.C49_any_prefix",
    "TPB.Props.C49_not_atomic"
   ],
   "note": "False: the output is truncated before it is written, so a crash can leave any prefix of the new contents (proved). Proved: never anything but the old contents or such a prefix, and no other file changes."
  },
  {
   "property": "C50",
   "status": "partial",
   "theorems": [
    "TPB.Props.C50_rust",
    "TPB.Props.C50_rust_handler_is_method",
    "TPB.Props.C50_dart_partial",
    "TPB.Props.C50_dart_iff_partial",
    "TPB.Props.C50_dart_case_clash",
    "TPB.Props.C50_dart_completers_clash"
   ],
   "note": "Proved for Rust. False for Dart: get_user and getUser get the same names, and so do helpers of connect_x and x_completers (proved). The exact condition under which the client class declares no name twice is proved."
  },
  {
   "property": "C51",
   "status": "partial",
   "theorems": [
    "TPB.Props.C51_sync_read_partial",
    "TPB.Props.C51_async_read_partial",
    "TPB.Props.C51_builtin_result_is_rejected"
   ],
   "note": "False for built-in return types: the emitted code passes a reference where a value is taken. Proved for all other return types."
  },
  {
   "property": "C52",
   "status": "partial",
   "theorems": [
    "TPB.Props.C52_polite_partial",
    "TPB.Props.C52_overwritten",
    "TPB.Props.C52_client",
    "TPB.Props.C52_calls_at_once"
   ],
   "note": "False: a request written while the server buffer still holds an unread one replaces it for good (proved for every schema), and the emitted client of every schema does that when a method is called twice in a row (C52_calls_at_once). Proved when requests are only written into a buffer without a message."
  },
  {
   "property": "C53",
   "status": "partial",
   "theorems": [
    "TPB.Props.C53_kotlin_partial",
    "TPB.Props.C53_kotlin_empty_variant",
    "TPB.Props.C53_swift_partial"
   ],
   "note": "What is declared is proved for all accepted schemas.  Refuted: Kotlin variants A() are emitted as data classes without parameters, which are not valid; Swift's char (C43_swift_char)."
  },
  {
   "property": "C54",
   "status": "partial",
   "theorems": [
    "TPB.Props.C54_kotlin_partial",
    "TPB.Props.C54_kotlin_char",
    "TPB.Props.C54_kotlin_address",
    "TPB.Props.C54_swift_partial",
    "TPB.Props.C54_swift_call"
   ],
   "note": "Proved for schemas without char and address types in defaults; refuted for those, and in Swift for a first variant A()."
  },
  {
   "property": "C55",
   "status": "proved",
   "theorems": [
    "TPB.Props.C55_rust",
    "TPB.Props.C55_rust_new_variant",
    "TPB.Props.C55_dart"
   ],
   "note": "Names of new types must not already be used for types of the runtime library; Dart: for values that Dart can represent."
  },
  {
   "property": "C56",
   "status": "proved",
   "theorems": [
    "TPB.Props.C56_addresses",
    "TPB.Props.C56_sync_call",
    "TPB.Props.C56_async_call",
    "TPB.Props.C56_sync_read",
    "TPB.Props.C56_async_read"
   ],
   "note": "Results that are values of the old version. The client side of asynchronous answers is C34_client_answer, which reads exactly the answers of C56_async_call."
  },
  {
   "property": "C57",
   "status": "partial",
   "theorems": [
    "TPB.Props.C57_ascending_partial",
    "TPB.Props.C57_reordered_fields",
    "TPB.Props.C57_numbers_ignored"
   ],
   "note": "False: the numbers of struct fields are ignored, fields are written in the order of declaration (refuted with a witness that misreads silently). In every language, schemas that differ only in such numbers get identical files (C57_numbers_ignored). Proved when both orders agree."
  },
  {
   "property": "C58",
   "status": "partial",
   "theorems": [
    "TPB.Props.C58_client_stream",
    "TPB.Props.C58_stream_partial",
    "TPB.Props.C58_repeated",
    "TPB.Props.C58_lost",
    "TPB.Props.C58_overwritten",
    "TPB.Props.C58_record",
    "TPB.Props.C58_sync_stream_partial",
    "TPB.Props.C58_sync_repeated",
    "TPB.Props.C58_sync_lost",
    "TPB.Props.C58_sync_overwritten"
   ],
   "note": "Proved: only yielded values, in the order of the yields, for every interleaving, for asynchronous and for synchronous read methods (for the latter the returned values are kept in a record, which changes nothing else: C58_record). Refuted: a value is delivered again each time the client reads, since the buffer is not marked as read, and is lost when the next one overwrites it (for every schema and history: once the buffer holds the value with number j, no earlier one is delivered any more)."
  },
  {
   "property": "C59",
   "status": "partial",
   "theorems": [
    "TPB.Props.C59_rust_typed_partial",
    "TPB.Props.C59_char",
    "TPB.Props.C59_keyword",
    "TPB.Props.C59_bound_name",
    "TPB.Props.C59_value",
    "TPB.Props.C59_recursive"
   ],
   "note": "C59_rust_typed_partial: the emitted declarations and impl blocks obey the typing rules (Spec/RustTyping.lean) if and only if the schema is typable, for all accepted schemas and all imported crates. Missing, because false: char fields, keywords as names, variant fields called bytes_writer or like an empty struct, empty structs called like a variable of the emitted code, and types that contain themselves are accepted by the parser and emitted as code that does not compile. Borrow checking and trait bounds of imported types are not covered; for the RPC section see C62, for constants C63."
  },
  {
   "property": "C60",
   "status": "partial",
   "theorems": [
    "TPB.Props.C60_dart_typed_partial",
    "TPB.Props.C60_same_class",
    "TPB.Props.C60_field_name",
    "TPB.Props.C60_hidden_type",
    "TPB.Props.C60_parameter",
    "TPB.Props.C60_variant_name",
    "TPB.Props.C60_empty_payload"
   ],
   "note": "C60_dart_typed_partial: for all accepted schemas that are typable (a condition on names and types of the schema, Spec/DartTyping.lean), all libraries and all conversions of names, the emitted models and codecs obey the rules. Missing, because false: the other theorems show families of accepted schemas whose Dart code is rejected (classes of the same name, reserved words, members of Object, fields called reader or like a type, parameters called value or model, variants called String or Index, variants written A()). The RPC section and null safety beyond initialisation are not covered."
  },
  {
   "property": "C61",
   "status": "partial",
   "theorems": [
    "TPB.Props.C61_can_succeed",
    "TPB.Props.C61_rust_round_trip_partial",
    "TPB.Props.C61_rust_typed",
    "TPB.Props.C61_exchange_partial",
    "TPB.Props.C61_rpc_programs",
    "TPB.Props.C61_calls_completed"
   ],
   "note": "Composition of C02, C10, C17, C19, C29, C34, C38, C47, C48, C59: statements about the contents of files before and after a run. C61_can_succeed: exact condition. C61_rpc_programs carries every theorem about emitted RPC programs over to the files. Partial because the exchange needs the hypotheses of C29 (names that can be told apart, portable types), without which it is false."
  },
  {
   "property": "C62",
   "status": "partial",
   "theorems": [
    "TPB.Props.C62_rust_rpc_typed_partial",
    "TPB.Props.C62_read_builtin",
    "TPB.Props.C62_method_name",
    "TPB.Props.C62_function_name",
    "TPB.Props.C62_repeated",
    "TPB.Props.C62_keyword",
    "TPB.Props.C62_method_id",
    "TPB.Props.C62_empty_struct"
   ],
   "note": "C62_rust_rpc_typed_partial: for all accepted schemas with methods, all crates and all user functions of the declared types, the emitted file obeys the typing rules (Spec/RustRpcTyping.lean) if and only if the schema meets RpcTypable. Missing, because false: the other theorems show families of accepted schemas that never compile (read methods of built-in types; methods called like a variable or a function of the emitted code; repeated names; keywords; an argument __method_id__; empty structs called like a variable). Send bounds of futures and borrows are not covered."
  },
  {
   "property": "C63",
   "status": "partial",
   "theorems": [
    "TPB.Props.C63_rust_partial",
    "TPB.Props.C63_dart_partial",
    "TPB.Props.C63_refuted",
    "TPB.Props.C63_rust_string",
    "TPB.Props.C63_rust_whole_float",
    "TPB.Props.C63_rust_range",
    "TPB.Props.C63_kinds",
    "TPB.Props.C63_rust_repeated",
    "TPB.Props.C63_dart_type_name"
   ],
   "note": "C63_rust_partial and C63_dart_partial: for all legal schemas, the declared constants, modules and classes read from the emitted text obey the rules of the compiler (Spec/ConstTyping.lean) if and only if the schema meets RustConstSchema or DartConstSchema; strings are those that are emitted intact (C41). Missing, because false (C63_refuted): String and char constants never compile in Rust, nor do whole floating-point constants, literals out of range, literals of another kind, repeated names; a Dart constant may not be called like a type of its block (INT). Clashes with names of other sections of the file are not covered."
  },
  {
   "property": "C64",
   "status": "partial",
   "theorems": [
    "TPB.Props.C64_dart_rpc_typed_partial",
    "TPB.Props.C64_method_name",
    "TPB.Props.C64_repeated",
    "TPB.Props.C64_same_name",
    "TPB.Props.C64_hidden_library",
    "TPB.Props.C64_client_class",
    "TPB.Props.C64_scope",
    "TPB.Props.C64_argument_name",
    "TPB.Props.C64_argument_hidden",
    "TPB.Props.C64_method_id",
    "TPB.Props.C64_to_string"
   ],
   "note": "C64_dart_rpc_typed_partial: for all accepted schemas with methods, namespace and id, and all libraries for which the types of the schema are usable, the emitted file with the client class obeys the typing rules (Spec/DartRpcTyping.lean) if and only if the schema meets DartRpcTypable. Missing, because false: the other theorems show families of accepted schemas whose client is rejected with every library (methods called like a reserved word, a member of Object, the client class, disconnect or a library name in use; methods or arguments with the same Dart name; arguments called writer, completer, result or methodId; ids with quotes; a struct called like the client class). Definite assignment of late members is not covered."
  },
  {
   "property": "C65",
   "status": "partial",
   "theorems": [
    "TPB.Props.C65_sends_arguments_partial",
    "TPB.Props.C65_method_id"
   ],
   "note": "C65_sends_arguments_partial: in every state, a call writes exactly one message, to the server buffer of its method, with the marker, the id (asynchronous methods) and the bytes of its arguments in order. Missing, because false: an argument of an asynchronous method called method_id is hidden by the id of the request. If it is an integer the compiler accepts this (example beside the theorem), and C65_method_id shows that its value is ignored: calls that differ only in it have the same effect in every state."
  },
  {
   "property": "C66",
   "status": "proved",
   "theorems": [
    "TPB.Props.C66_disconnect",
    "TPB.Props.C66_before",
    "TPB.Props.C66_calls_never_complete"
   ],
   "note": "For all histories (Sem/DartDisconnect.lean). The scheduler's part (a disconnected task is not run again) belongs to the runtime library and is an assumption of the model."
  },
  {
   "property": "C67",
   "status": "proved",
   "theorems": [
    "TPB.Props.C67_typed",
    "TPB.Props.C67_canonical",
    "TPB.Props.C67_unique_encoding",
    "TPB.Props.C67_truncated",
    "TPB.Props.C67_ends",
    "TPB.Props.C67_truncated_panics"
   ],
   "note": "Laws of the library about bytes of unknown origin are hypotheses (Spec/Untrusted.lean) and are met by a concrete library. C67_ends excludes structs that contain themselves directly, which rustc rejects (C59). Memory needed by a container before its elements are read belongs to the library."
  },
  {
   "property": "C68",
   "status": "proved",
   "theorems": [
    "TPB.Props.C68_typed_calls",
    "TPB.Props.C68_only_requests"
   ],
   "note": "For all histories from any initial buffers, with arbitrary bytes. Hypotheses on the library as in C67; no type of the schema may refer to the struct that holds the arguments of a method."
  },
  {
   "property": "C69",
   "status": "proved",
   "theorems": [
    "TPB.Props.C69_progress",
    "TPB.Props.C69_compiled_progress",
    "TPB.Props.C69_builtin_read_stuck"
   ],
   "note": "For all histories from any initial buffers. C69_compiled_progress is for the schemas whose code type-checks (C62); C69_builtin_read_stuck shows that the condition is needed. With enough stack: how deep values may be nested depends on the machine. Hypotheses on the library as in C67; no type of the schema may refer to the struct that holds the arguments of a method."
  },
  {
   "property": "C70",
   "status": "proved",
   "theorems": [
    "TPB.Props.C70_typed",
    "TPB.Props.C70_canonical",
    "TPB.Props.C70_rewrite",
    "TPB.Props.C70_ends",
    "TPB.Props.C70_truncated"
   ],
   "note": "Laws of the library about bytes of unknown origin are hypotheses (Spec/UntrustedDart.lean) and are met by a concrete library. What an existing object holds after an exception is not described. Memory needed by a list before its elements are read belongs to the library."
  },
  {
   "property": "C71",
   "status": "partial",
   "theorems": [
    "TPB.Props.C71_same_messages_partial",
    "TPB.Props.C71_same_errors_partial",
    "TPB.Props.C71_integer_lists_differ"
   ],
   "note": "Missing: the types for which the two sides have different formats (char, lists of built-in types and of lists, other generic types, variant numbers beyond 31 bits). C71_integer_lists_differ gives bytes that one side accepts and the other refuses."
  },
  {
   "property": "C72",
   "status": "proved",
   "theorems": [
    "TPB.Props.C72_typed_results",
    "TPB.Props.C72_answered",
    "TPB.Props.C72_completes",
    "TPB.Props.C72_progress",
    "TPB.Props.C72_call_progress"
   ],
   "note": "The server is replaced by arbitrary writes to the buffers. The library is a parameter: C72_typed_results assumes that it reads values of the requested types, C72_answered that it accepts only what it writes. A history ends at an uncaught exception."
  },
  {
   "property": "C73",
   "status": "proved",
   "theorems": [
    "TPB.Props.C73_in_order",
    "TPB.Props.C73_nothing_lost",
    "TPB.Props.C73_can_complete"
   ],
   "note": "The positive counterpart of C35 and C52. The assumptions of C34; in addition nobody but the emitted code writes to the buffers of the method."
  },
  {
   "property": "C74",
   "status": "partial",
   "theorems": [
    "TPB.Props.C74_kotlin_partial",
    "TPB.Props.C74_swift_partial",
    "TPB.Props.C74_kotlin_strings",
    "TPB.Props.C74_swift_strings",
    "TPB.Props.C74_kotlin_template",
    "TPB.Props.C74_swift_escape"
   ],
   "note": "Proved for all schemas that can be written down with numbers of digits (without the signs and exponents of C92) and whose strings have no backslash, line break or (Kotlin) template; for strings the exact condition is proved, and false instances are shown. Missing: nothing for those strings; for the others the full statement is false. Assumed: case changes give identifiers and numbers are printed as decimals (Rust's formatting of f64, parameter)."
  },
  {
   "property": "C75",
   "status": "partial",
   "theorems": [
    "TPB.Props.C75_kotlin_partial",
    "TPB.Props.C75_swift_partial",
    "TPB.Props.C75_swift_f32",
    "TPB.Props.C75_kotlin_range",
    "TPB.Props.C75_hidden_type",
    "TPB.Props.C75_swift_suffix"
   ],
   "note": "Exact: accepted if and only if the schema meets a written condition. The unrestricted claim is false: 32-bit floating-point constants in Swift, out-of-range integers, blocks that hide a type. The compilers' rules are those written in Spec/MobileConsts; the strings are those of C74."
  },
  {
   "property": "C76",
   "status": "partial",
   "theorems": [
    "TPB.Props.C76_kotlin_partial",
    "TPB.Props.C76_swift_partial",
    "TPB.Props.C76_kotlin_misfit",
    "TPB.Props.C76_swift_misfit"
   ],
   "note": "Typed (names, types, arguments, defaults, sizes) holds of the emitted declarations exactly for the schemas of Fit, for all libraries. The property fails for other accepted schemas: C76_kotlin_misfit and C76_swift_misfit list families (names not in Pascal case, char and address fields, variants A(), hidden types, types that contain themselves). Left out: schemas excluded by NoAccidents."
  },
  {
   "property": "C77",
   "status": "partial",
   "theorems": [
    "TPB.Props.C77_kotlin_partial",
    "TPB.Props.C77_kotlin_endless",
    "TPB.Props.C77_swift_partial"
   ],
   "note": "Evaluation of createDefault on the emitted declarations, with a depth of the stack: whatever is returned is the default value, nothing is undefined, and Swift always returns. Kotlin returns exactly for types with a finite default value; C77_kotlin_endless: a struct that contains itself compiles and createDefault never returns. Left out: schemas excluded by NoAccidents."
  },
  {
   "property": "C78",
   "status": "partial",
   "theorems": [
    "TPB.Props.C78_is_read_partial",
    "TPB.Props.C78_source_partial",
    "TPB.Props.C78_round_trip_partial",
    "TPB.Props.C78_layout_partial",
    "TPB.Props.C78_skip_partial",
    "TPB.Props.C78_default_partial",
    "TPB.Props.C78_typed_partial"
   ],
   "note": "An independent reader of the Rust fragment (Spec/RustReader.lean) is applied to the generated characters; the program it returns is unique and has the properties C19-C22, C46, C59. This removes the printed trees from what has to be trusted. Missing: schemas with a Rust keyword as a name (the text is no Rust then, C59_keyword)."
  },
  {
   "property": "C79",
   "status": "proved",
   "theorems": [
    "TPB.Props.C79_names_legal",
    "TPB.Props.C79_names_from_text"
   ],
   "note": "For every source text, bytes beyond ASCII included."
  },
  {
   "property": "C80",
   "status": "partial",
   "theorems": [
    "TPB.Props.C80_same_types",
    "TPB.Props.C80_same_text_partial",
    "TPB.Props.C80_source_partial"
   ],
   "note": "Same types give the same text for all accepted schemas. The converse goes through the reader of C78, so it leaves out schemas with a Rust keyword as a name."
  },
  {
   "property": "C81",
   "status": "partial",
   "theorems": [
    "TPB.Props.C81_is_read_partial",
    "TPB.Props.C81_source_partial",
    "TPB.Props.C81_typed_partial",
    "TPB.Props.C81_round_trip_partial",
    "TPB.Props.C81_layout_partial",
    "TPB.Props.C81_emplace_partial",
    "TPB.Props.C81_codecs_agree_partial",
    "TPB.Props.C81_skip_partial",
    "TPB.Props.C81_unknown_tag_partial",
    "TPB.Props.C81_exchange_partial"
   ],
   "note": "An independent reader of the Dart fragment (Spec/DartReader.lean) is applied to the generated characters; the program it returns is unique and has the properties C23, C25-C29, C60. Missing: schemas with a reserved word of Dart as a name or a variant with empty parentheses (rejected by the Dart compiler, C60_field_name, C60_empty_payload); skipping several values or with other orders of fields (false, C28)."
  },
  {
   "property": "C82",
   "status": "partial",
   "theorems": [
    "TPB.Props.C82_is_read_partial",
    "TPB.Props.C82_registration",
    "TPB.Props.C82_sync_call",
    "TPB.Props.C82_sync_exactly_once",
    "TPB.Props.C82_async_exactly_once",
    "TPB.Props.C82_at_most_once_per_request",
    "TPB.Props.C82_answers_match_requests",
    "TPB.Props.C82_one_read_in_flight",
    "TPB.Props.C82_sync_read_partial",
    "TPB.Props.C82_async_read_partial"
   ],
   "note": "An independent reader of the Rust fragment for methods (Spec/RustRpcReader.lean) is applied to the generated characters; the section it returns is unique, and its registration and handlers have the properties C31-C34, C36 and C51 (the reader gets the declared result types, which the text of a handler does not show). Missing: schemas with a keyword of Rust as a name (their text is no Rust, C59_keyword), an id with a quote, backslash or carriage return, and read methods with a built-in result (C51_builtin_result_is_rejected)."
  },
  {
   "property": "C83",
   "status": "partial",
   "theorems": [
    "TPB.Props.C83_is_read_partial",
    "TPB.Props.C83_addresses",
    "TPB.Props.C83_sync_call",
    "TPB.Props.C83_client_answer",
    "TPB.Props.C83_calls_completed",
    "TPB.Props.C83_delivered_partial",
    "TPB.Props.C83_client_stream",
    "TPB.Props.C83_stream_partial",
    "TPB.Props.C83_typed"
   ],
   "note": "An independent reader of the Dart client class (Spec/DartRpcReader.lean) is applied to the generated characters, next to those of C78, C81 and C82; what they return is unique, and run together it has the properties C31, C32, C34, C35, C58 and C64. Missing: names that are reserved in one of the languages (their text is rejected, C59_keyword, C64_method_name), ids other than words with hyphens, arguments called methodId (C65_method_id), a result type called Future, and what is missing in C35 and C58 (C35_answer_is_lost, C58_repeated, C58_lost)."
  },
  {
   "property": "C84",
   "status": "partial",
   "theorems": [
    "TPB.Props.C84_is_read_partial",
    "TPB.Props.C84_declares_partial",
    "TPB.Props.C84_creates_partial",
    "TPB.Props.C84_typed_partial",
    "TPB.Props.C84_runs_partial",
    "TPB.Props.C84_source_partial"
   ],
   "note": "An independent reader of Kotlin (Spec/KotlinReader.lean) is applied to the characters of the generated models; what it returns is unique and has the properties C53, C54, C76 and C77; C84_source_partial starts at source text. Missing: names that are reserved in Kotlin or no identifiers after the change of case, and what is missing in C53, C54, C76 and C77."
  },
  {
   "property": "C85",
   "status": "partial",
   "theorems": [
    "TPB.Props.C85_is_read_partial",
    "TPB.Props.C85_declares_partial",
    "TPB.Props.C85_creates_partial",
    "TPB.Props.C85_typed_partial",
    "TPB.Props.C85_runs_partial",
    "TPB.Props.C85_source_partial"
   ],
   "note": "An independent reader of Swift (Spec/SwiftReader.lean) is applied to the characters of the generated models; what it returns is unique and has the properties C53, C54, C76 and C77; C85_source_partial starts at source text. Missing: names that are reserved in Swift or no identifiers after the change of case, lists with several types of elements, and what is missing in C53, C54, C76 and C77."
  },
  {
   "property": "C86",
   "status": "partial",
   "theorems": [
    "TPB.Props.C86_exchange_partial",
    "TPB.Props.C86_files_partial",
    "TPB.Props.C86_sync_call_partial",
    "TPB.Props.C86_calls_completed_partial"
   ],
   "note": "Composition of C61 with C78, C81, C82 and C83: from any accepted source text and configuration to the programs that the independent readers find in the characters of the output files. Missing: names that are reserved in one of the languages, ids with other characters than letters, digits and hyphens, and the schemas excluded by C29 and C83."
  },
  {
   "property": "C87",
   "status": "proved",
   "theorems": [
    "TPB.Props.C87_even_sections",
    "TPB.Props.C87_uneven_sections",
    "TPB.Props.C87_unchanged",
    "TPB.Props.C87_rust_rpc",
    "TPB.Props.C87_dart_client"
   ],
   "note": "For all accepted schemas. Swift under the assumption that the case conversion leaves createDefault alone. In the Dart and Kotlin models the separator between two declarations is a blank line or nothing, depending on the two kinds of declaration."
  },
  {
   "property": "C88",
   "status": "partial",
   "theorems": [
    "TPB.Props.C88_struct_partial",
    "TPB.Props.C88_create_partial",
    "TPB.Props.C88_to_partial",
    "TPB.Props.C88_is_partial",
    "TPB.Props.C88_sent_partial",
    "TPB.Props.C88_hidden_value"
   ],
   "note": "Proved for schemas whose names can be told apart in Dart and whose enum classes are accepted by the Dart compiler. Refuted without: a field called value hides the member that toV assigns. Objects are values here; C90 and C91 are about shared objects."
  },
  {
   "property": "C89",
   "status": "partial",
   "theorems": [
    "TPB.Props.C89_default_partial",
    "TPB.Props.C89_first_variant_partial",
    "TPB.Props.C89_returns_iff",
    "TPB.Props.C89_endless",
    "TPB.Props.C89_all_variants"
   ],
   "note": "Proved for schemas whose names can be told apart in Dart, whose types do not contain themselves, with one type argument for Vec and payloads where a variant announces one; the library's list factory returns the empty list. C89_returns_iff says exactly which factories return. Refuted for a struct that contains itself, and for an enum whose default value exists but whose other variants contain the enum."
  },
  {
   "property": "C90",
   "status": "partial",
   "theorems": [
    "TPB.Props.C90_write_partial",
    "TPB.Props.C90_read_partial",
    "TPB.Props.C90_create_partial",
    "TPB.Props.C90_emplace_partial",
    "TPB.Props.C90_others_keep",
    "TPB.Props.C90_sent_partial",
    "TPB.Props.C90_shared"
   ],
   "note": "The emitted code is run on a memory of objects with references (Sem/DartHeap.lean). Proved for schemas whose names can be told apart in Dart, with defaults and distinct variant numbers as in C25 and C26, and libraries whose list factory returns the empty list. Refuted for reading in place into an object that refers to one part twice: the second field overwrites the first."
  },
  {
   "property": "C91",
   "status": "partial",
   "theorems": [
    "TPB.Props.C91_struct_partial",
    "TPB.Props.C91_create_partial",
    "TPB.Props.C91_to_partial",
    "TPB.Props.C91_is_partial",
    "TPB.Props.C91_arguments_kept",
    "TPB.Props.C91_cycle"
   ],
   "note": "The emitted methods are run on a memory of objects with references (Sem/DartHeapMethods.lean). Proved for schemas whose names can be told apart in Dart and whose enum classes are accepted by the Dart compiler, and for toV on objects without shared parts whose arguments do not contain the object or its payload object. Refuted without the latter: leaf.toNode([leaf]) makes an object that stands for no value and cannot be written. The caller's objects are kept, not copied: reading in place into the new object changes them."
  },
  {
   "property": "C92",
   "status": "partial",
   "theorems": [
    "TPB.Props.C92_point_number",
    "TPB.Props.C92_decimal_literals",
    "TPB.Props.C92_integer_literals",
    "TPB.Props.C92_constants",
    "TPB.Props.C92_negative",
    "TPB.Props.C92_exponent"
   ],
   "note": "Shape of decimal literals and range of integer literals are proved for every source. That literals have no sign and no exponent is false: 0x_-5 is read as -5 (C92_negative) and 1._e_5 as 1.e5 (C92_exponent), since the character after an underscore is not checked."
  },
  {
   "property": "C93",
   "status": "proved",
   "theorems": [
    "TPB.Props.C93_rust",
    "TPB.Props.C93_dart",
    "TPB.Props.C93_rust_to_dart",
    "TPB.Props.C93_dart_to_rust",
    "TPB.Props.C93_swapped"
   ],
   "note": "Proved for every pair of schemas of the same shape: C93_rust for all types; C93_dart for all types but library types applied to declared types, and lists of built-in types if a declared type is called Int, Double, Bool or List (Renamable); between the languages for portable types, on which they agree (C29). C93_swapped shows that fields are told apart by place only."
  },
  {
   "property": "C94",
   "status": "proved",
   "theorems": [
    "TPB.Props.C94_addresses",
    "TPB.Props.C94_sync_call",
    "TPB.Props.C94_async_call",
    "TPB.Props.C94_sync_read",
    "TPB.Props.C94_async_read",
    "TPB.Props.C94_swapped"
   ],
   "note": "Proved for every pair of interfaces that differ in names (SameInterface); methods with portable types for calls from the Dart client, as in C32. C94_swapped: names do not tell methods apart, so a call of an old client reaches the other one of two methods that traded places."
  },
  {
   "property": "C95",
   "status": "proved",
   "theorems": [
    "TPB.Props.C95_rust",
    "TPB.Props.C95_dart",
    "TPB.Props.C95_rust_variant",
    "TPB.Props.C95_dart_variant",
    "TPB.Props.C95_rust_short",
    "TPB.Props.C95_dart_short",
    "TPB.Props.C95_nested",
    "TPB.Props.C95_sync_call",
    "TPB.Props.C95_async_call",
    "TPB.Props.C95_missing_sync",
    "TPB.Props.C95_missing_async",
    "TPB.Props.C95_stale"
   ],
   "note": "Proved for every pair of schemas in which one struct or method has further fields or arguments (MoreFields, MorePayload, MoreArgs, FewerArgs); methods with portable types for calls from the Dart client, as in C32. C95_nested: no such thing for a longer value inside another one. C95_stale is a concrete refutation of compatibility for appended arguments: the missing argument is that of an earlier call."
  },
  {
   "property": "C96",
   "status": "proved",
   "theorems": [
    "TPB.Props.C96_sync_call",
    "TPB.Props.C96_async_call",
    "TPB.Props.C96_inserted",
    "TPB.Props.C96_removed",
    "TPB.Props.C96_removed_call"
   ],
   "note": "Proved for every pair of accepted schemas; methods with portable types for calls from the Dart client, as in C32."
  },
  {
   "property": "C97",
   "status": "proved",
   "theorems": [
    "TPB.Props.C97_two_clients",
    "TPB.Props.C97_created_again"
   ],
   "note": "A limit of C34, proved for every accepted schema and every asynchronous method of the Dart client."
  },
  {
   "property": "C98",
   "status": "proved",
   "theorems": [
    "TPB.Props.C98_run_again",
    "TPB.Props.C98_idempotent",
    "TPB.Props.C98_generate_again",
    "TPB.Props.C98_stale",
    "TPB.Props.C98_schema_lost",
    "TPB.Props.C98_rust_rejected",
    "TPB.Props.C98_dart_rejected",
    "TPB.Props.C98_overwritten"
   ],
   "note": "For all configurations whose outputs are not read again; C98_schema_lost and C98_overwritten show why that is needed: a schema replaced by generated code is never accepted again (C98_rust_rejected for all schemas and sections, C98_dart_rejected with serialization or RPC code; a Dart file of comments only is the empty schema, shown by an example). Paths are strings, as in C47-C49."
  },
  {
   "property": "C99",
   "status": "proved",
   "theorems": [
    "TPB.Props.C99_exact",
    "TPB.Props.C99_order",
    "TPB.Props.C99_same_output"
   ],
   "note": "For all configurations whose outputs are not read again (C98 shows why that is needed). C99_same_output: with a common output the order matters. Paths are strings, as in C47-C49."
  }
 ]
}
