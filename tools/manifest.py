"""Writes MANIFEST.json from the table below."""
import json, os
P = "TPB.Props."
C = []
def claim(prop, status, names, note=""):
    C.append({"property": prop, "status": status, "theorems": [P + n for n in names.split()], "note": note})

claim("C01", "proved", "C01_tokenize_total C01_cursor")
claim("C02", "proved", "C02_layout_tokenizes C02_layout_insensitive C02_source_text")
claim("C03", "proved", "C03_word")
claim("C04", "partial", "C04_string_literal_partial C04_string_literal_bytes C04_string_literal_exact_iff C04_string_literals_not_exact",
      "False as stated: non-ASCII contents are read byte by byte. Proved for ASCII, with an exact iff and a refutation of the full statement.")
claim("C05", "proved", "C05_decimal C05_hexadecimal")
claim("C06", "partial", "C06_block_comment_partial C06_star_free_partial C06_block_comment_closes_iff C06_block_comments_not_closed C06_more_failures",
      "False as stated (e.g. a comment ending in **/ is not closed). Proved for an exact class of bodies.")
claim("C07", "proved", "C07_line_comment C07_line_comment_eof")
claim("C08", "proved", "C08_parse_total C08_parse_source_total")
claim("C09", "proved", "C09_accepts C09_every_schema C09_results_wellformed C09_unambiguous")
claim("C10", "proved", "C10_text_round_trip C10_every_schema_has_text")
claim("C11", "partial", "C11_only_grammar_partial C11_accepted_iff C11_grammar_balances C11_open_bracket_accepted C11_unclosed_group_accepted",
      "False as stated: two lenient productions are accepted. Exact description of what is accepted, and the full claim for balanced brackets.")
claim("C12", "proved", "C12_append C12_earlier_unchanged C12_append_text")
claim("C13", "proved", "C13_addresses C13_unique")
claim("C14", "partial", "C14_unnumbered_fields C14_numbered_fields_partial C14_unnumbered_variants C14_numbered_variants_partial C14_number_exact_iff C14_numbers_not_exact",
      "False for written numbers from 2^32 on (they are reduced modulo 2^32); proved for all others.")
claim("C15", "proved", "C15_first_variant")
claim("C16", "proved", "C16_types C16_names C16_generic")
claim("C18", "proved", "C18_value C18_group_values C18_group_value C18_others_do_not_matter")
claim("C19", "proved", "C19_struct_round_trip C19_round_trip")
claim("C20", "partial", "C20_enum_round_trip_partial C20_duplicate_numbers_do_not_round_trip C20_writer_name_clash",
      "False as stated: two variants may have the same number, and a variant field may be called bytes_writer. Proved for all other schemas.")
claim("C21", "proved", "C21_skip C21_skip_values")
claim("C22", "proved", "C22_layout C22_struct_layout C22_enum_layout C22_list_layout",
      "Layout written by the emitted Rust code; the Dart side is in C25/C29.")
claim("C23", "proved", "C23_rust_unknown_tag C23_rust_undeclared_number C23_dart_unknown_tag C23_dart_undeclared_number")
claim("C25", "partial", "C25_round_trip_partial C25_objects_partial C25_endless C25_recursive_enum C25_layout C25_object_represents_one_value C25_duplicate_numbers_do_not_round_trip C25_reader_name_clash",
      "False as stated: two variants may have the same number, a field may be called reader, and values of an enum that contains itself are never read. Proved for all schemas whose Dart names can be told apart, with distinct 31-bit variant numbers: every object that exists survives (C25_objects_partial), and every value of a type with a default object.")
claim("C26", "partial", "C26_emplace_overwrites_partial C26_objects_partial C26_representations_are_objects",
      "Proved for the same schemas as C25; the previous contents are arbitrary.")
claim("C27", "proved", "C27_codecs_agree C27_classes_agree",
      "For schemas whose Dart names can be told apart (others are rejected by the Dart compiler). That the two library codecs of an external type write the same bytes is assumed.")
claim("C28", "partial", "C28_skip_partial C28_walks C28_one_value_iff C28_count C28_count_ignored C28_two_values_not_skipped C28_one_value_not_skipped",
      "False as stated: fields whose type is given by a name are skipped once, before all other fields. Proved where that order and count are right; for every order and count, what is passed over instead, and exactly when that is one value. Structs whose fields all have types given by names ignore the count (C28_count_ignored).")
claim("C29", "partial", "C29_rust_to_dart_partial C29_dart_to_rust_partial C29_same_value_partial C29_chars_never_seen C29_large_numbers_never_seen C29_large_number_example C29_integer_lists_do_not_agree",
      "False for char, lists of built-in types, variant numbers from 2^31 on and large unsigned integers. Proved for all other types, with the exact change of unsigned integers.")
claim("C30", "partial", "C30_lower_half_partial C30_upper_half_is_negative C30_upper_half_never_seen",
      "False for the upper half of the range (proved), true for the lower half (proved).")
claim("C24", "proved", "C24_self_delimiting C24_sequences")
claim("C31", "proved", "C31_addresses_agree C31_rust_registration", "Scope, addresses, groups and buffers of both emitted sides.")
claim("C32", "proved", "C32_sync_call C32_client_call_partial", "C32_sync_call: the client buffer then begins with exactly the encoded result, all types. C32_client_call_partial: the whole call through the emitted Dart client, only for methods whose types both sides encode alike (see C29).")
claim("C33", "proved", "C33_sync_exactly_once C33_async_exactly_once C33_at_most_once_per_request")
claim("C34", "proved", "C34_client_answer C34_answers_match_requests C34_calls_completed", "C34_client_answer: emitted Dart client, all types, any client state. C34_answers_match_requests: emitted Rust server, all types, any history. C34_calls_completed: both together, any history, for methods whose types both sides encode alike (see C29).")
claim("C35", "partial", "C35_delivered_partial C35_overwritten C35_answer_is_lost", "False: an answer is overwritten by the next one if the client has not polled in between (witness, and for every schema: a call whose answer is not in the buffer when the server is done is never completed). Proved: an answer that is in the buffer when the client polls completes its call.")
claim("C36", "proved", "C36_one_read_in_flight")
claim("C37", "partial", "C37_next_poll_starts_again_partial C37_read_without_result_blocks",
      "False if a call yields nothing: the method stays busy forever (proved). Proved for all other histories.")
claim("C51", "partial", "C51_sync_read_partial C51_async_read_partial C51_builtin_result_is_rejected",
      "False for built-in return types: the emitted code passes a reference where a value is taken. Proved for all other return types.")
claim("C38", "proved", "C38_rust_sections C38_rust_models_off C38_rust_buffers_off C38_rust_rpc_off C38_rust_failures C38_dart_sections C38_dart_models_off C38_dart_buffers_off C38_dart_rpc_off C38_dart_failures")
claim("C39", "proved", "C39_rust_single_newline C39_dart_single_newline")
claim("C40", "partial", "C40_rust_partial C40_rust_whole_float C40_dart_partial C40_dart_members C40_rust_file_partial C40_dart_file_partial",
  "False for Rust: a float constant with a whole value is printed as an integer literal (proved). Proved for the rest by reading the generated text back with an independent reader: same constants, order, modules, types, values, any depth, also in the whole file with any sections switched off. Missing: whole floats (Rust), strings of C41, literals with a sign or an exponent (C92), Dart name clashes; float printing is external.")
claim("C41", "partial", "C41_rust_iff_partial C41_dart_iff_partial C41_rust_backslash C41_dart_dollar",
  "False: backslashes (both), dollar signs and line breaks (Dart) and carriage returns are not escaped (proved). The theorems say exactly which strings are intact.")
claim("C42", "partial", "C42_clash C42_iff_partial C42_capitalised_partial C42_small_names_partial",
  "False: a{bC} and aB{c} give the same class name (proved). The exact condition is proved, and that it is met by names that become capitalised words.")
claim("C46", "partial", "C46_default_partial C46_enum_first_variant_partial C46_struct_fields_partial C46_char_field",
      "False for char fields (the literal 0 is emitted, which is not a char). Proved exactly (iff) for all other schemas whose names do not clash.")

claim("C17", "proved", "C17_rust C17_dart C17_kotlin_models C17_swift_models C17_kotlin_consts C17_swift_consts",
      "Exact conditions under which each generator succeeds; none of them mentions the size of a type.")
claim("C43", "partial", "C43_kotlin C43_kotlin_distinct C43_swift_partial C43_swift_char C43_swift_distinct",
      "False for char in Swift, which is emitted as char (proved). Proved for everything else.")
claim("C45", "proved", "C45_kotlin C45_swift C45_lists")

claim("C47", "proved", "C47_rejected C47_read_failure C47_panic C47_success",
      "Every moment of every run of the modelled program, whatever the system answers to each call.")
claim("C48", "proved", "C48_batch C48_any_moment C48_written C48_other_files")
claim("C49", "partial", "C49_prefix_partial C49_any_prefix C49_not_atomic",
      "False: the output is truncated before it is written, so a crash can leave any prefix of the new contents (proved). Proved: never anything but the old contents or such a prefix, and no other file changes.")

claim("C50", "partial", "C50_rust C50_rust_handler_is_method C50_dart_partial C50_dart_iff_partial C50_dart_case_clash C50_dart_completers_clash",
      "Proved for Rust. False for Dart: get_user and getUser get the same names, and so do helpers of connect_x and x_completers (proved). The exact condition under which the client class declares no name twice is proved.")

claim("C52", "partial", "C52_polite_partial C52_overwritten C52_client C52_calls_at_once",
      "False: a request written while the server buffer still holds an unread one replaces it for good (proved for every schema), and the emitted client of every schema does that when a method is called twice in a row (C52_calls_at_once). Proved when requests are only written into a buffer without a message.")

claim("C44", "partial", "C44_kotlin_partial C44_swift_partial C44_kotlin_iff C44_swift_iff C44_kotlin_type C44_kotlin_field C44_swift_type",
      "Proved when the names are already in the case that the generators give them; refuted otherwise (struct my_type, variant field my_field). Exact for accepted schemas whose names satisfy the readability conditions of C84 and C85: read back, declared and used names agree if and only if the names are in that case and no struct or enum is called like an address type (Swift: provided that Pascal case does not turn such a name into UInt64).")
claim("C53", "partial", "C53_kotlin_partial C53_kotlin_empty_variant C53_swift_partial",
      "What is declared is proved for all accepted schemas.  Refuted: Kotlin variants A() are emitted as data classes without parameters, which are not valid; Swift's char (C43_swift_char).")
claim("C54", "partial", "C54_kotlin_partial C54_kotlin_char C54_kotlin_address C54_swift_partial C54_swift_call",
      "Proved for schemas without char and address types in defaults; refuted for those, and in Swift for a first variant A().")
claim("C55", "proved", "C55_rust C55_rust_new_variant C55_dart",
      "Names of new types must not already be used for types of the runtime library; Dart: for values that Dart can represent.")
claim("C56", "proved", "C56_addresses C56_sync_call C56_async_call C56_sync_read C56_async_read",
      "Results that are values of the old version. The client side of asynchronous answers is C34_client_answer, which reads exactly the answers of C56_async_call.")
claim("C57", "partial", "C57_ascending_partial C57_reordered_fields C57_numbers_ignored",
      "False: the numbers of struct fields are ignored, fields are written in the order of declaration (refuted with a witness that misreads silently). In every language, schemas that differ only in such numbers get identical files (C57_numbers_ignored). Proved when both orders agree.")
claim("C58", "partial", "C58_client_stream C58_stream_partial C58_repeated C58_lost C58_overwritten C58_record C58_sync_stream_partial C58_sync_repeated C58_sync_lost C58_sync_overwritten",
      "Proved: only yielded values, in the order of the yields, for every interleaving, for asynchronous and for synchronous read methods (for the latter the returned values are kept in a record, which changes nothing else: C58_record). Refuted: a value is delivered again each time the client reads, since the buffer is not marked as read, and is lost when the next one overwrites it (for every schema and history: once the buffer holds the value with number j, no earlier one is delivered any more).")
claim("C59", "partial", "C59_rust_typed_partial C59_char C59_keyword C59_bound_name C59_value C59_recursive",
 "C59_rust_typed_partial: the emitted declarations and impl blocks obey the typing rules (Spec/RustTyping.lean) if and only if the schema is typable, for all accepted schemas and all imported crates. Missing, because false: char fields, keywords as names, variant fields called bytes_writer or like an empty struct, empty structs called like a variable of the emitted code, and types that contain themselves are accepted by the parser and emitted as code that does not compile. Borrow checking and trait bounds of imported types are not covered; for the RPC section see C62, for constants C63.")
claim("C60", "partial", "C60_dart_typed_partial C60_same_class C60_field_name C60_hidden_type C60_parameter C60_variant_name C60_empty_payload",
 "C60_dart_typed_partial: for all accepted schemas that are typable (a condition on names and types of the schema, Spec/DartTyping.lean), all libraries and all conversions of names, the emitted models and codecs obey the rules. Missing, because false: the other theorems show families of accepted schemas whose Dart code is rejected (classes of the same name, reserved words, members of Object, fields called reader or like a type, parameters called value or model, variants called String or Index, variants written A()). The RPC section and null safety beyond initialisation are not covered.")
claim("C61", "partial", "C61_can_succeed C61_rust_round_trip_partial C61_rust_typed C61_exchange_partial C61_rpc_programs C61_calls_completed",
 "Composition of C02, C10, C17, C19, C29, C34, C38, C47, C48, C59: statements about the contents of files before and after a run. C61_can_succeed: exact condition. C61_rpc_programs carries every theorem about emitted RPC programs over to the files. Partial because the exchange needs the hypotheses of C29 (names that can be told apart, portable types), without which it is false.")
claim("C62", "partial", "C62_rust_rpc_typed_partial C62_read_builtin C62_method_name C62_function_name C62_repeated C62_keyword C62_method_id C62_empty_struct",
 "C62_rust_rpc_typed_partial: for all accepted schemas with methods, all crates and all user functions of the declared types, the emitted file obeys the typing rules (Spec/RustRpcTyping.lean) if and only if the schema meets RpcTypable. Missing, because false: the other theorems show families of accepted schemas that never compile (read methods of built-in types; methods called like a variable or a function of the emitted code; repeated names; keywords; an argument __method_id__; empty structs called like a variable). Send bounds of futures and borrows are not covered.")
claim("C63", "partial", "C63_rust_partial C63_dart_partial C63_refuted C63_rust_string C63_rust_whole_float C63_rust_range C63_kinds C63_rust_repeated C63_dart_type_name",
 "C63_rust_partial and C63_dart_partial: for all legal schemas, the declared constants, modules and classes read from the emitted text obey the rules of the compiler (Spec/ConstTyping.lean) if and only if the schema meets RustConstSchema or DartConstSchema; strings are those that are emitted intact (C41). Missing, because false (C63_refuted): String and char constants never compile in Rust, nor do whole floating-point constants, literals out of range, literals of another kind, repeated names; a Dart constant may not be called like a type of its block (INT). Clashes with names of other sections of the file are not covered.")
claim("C64", "partial", "C64_dart_rpc_typed_partial C64_method_name C64_repeated C64_same_name C64_hidden_library C64_client_class C64_scope C64_argument_name C64_argument_hidden C64_method_id C64_to_string",
 "C64_dart_rpc_typed_partial: for all accepted schemas with methods, namespace and id, and all libraries for which the types of the schema are usable, the emitted file with the client class obeys the typing rules (Spec/DartRpcTyping.lean) if and only if the schema meets DartRpcTypable. Missing, because false: the other theorems show families of accepted schemas whose client is rejected with every library (methods called like a reserved word, a member of Object, the client class, disconnect or a library name in use; methods or arguments with the same Dart name; arguments called writer, completer, result or methodId; ids with quotes; a struct called like the client class). Definite assignment of late members is not covered.")
claim("C65", "partial", "C65_sends_arguments_partial C65_method_id",
 "C65_sends_arguments_partial: in every state, a call writes exactly one message, to the server buffer of its method, with the marker, the id (asynchronous methods) and the bytes of its arguments in order. Missing, because false: an argument of an asynchronous method called method_id is hidden by the id of the request. If it is an integer the compiler accepts this (example beside the theorem), and C65_method_id shows that its value is ignored: calls that differ only in it have the same effect in every state.")
claim("C66", "proved", "C66_disconnect C66_before C66_calls_never_complete",
 "For all histories (Sem/DartDisconnect.lean). The scheduler's part (a disconnected task is not run again) belongs to the runtime library and is an assumption of the model.")
claim("C67", "proved", "C67_typed C67_canonical C67_unique_encoding C67_truncated C67_ends C67_truncated_panics",
 "Laws of the library about bytes of unknown origin are hypotheses (Spec/Untrusted.lean) and are met by a concrete library. C67_ends excludes structs that contain themselves directly, which rustc rejects (C59). Memory needed by a container before its elements are read belongs to the library.")
claim("C68", "proved", "C68_typed_calls C68_only_requests",
 "For all histories from any initial buffers, with arbitrary bytes. Hypotheses on the library as in C67; no type of the schema may refer to the struct that holds the arguments of a method.")
claim("C69", "proved", "C69_progress C69_compiled_progress C69_builtin_read_stuck",
 "For all histories from any initial buffers. C69_compiled_progress is for the schemas whose code type-checks (C62); C69_builtin_read_stuck shows that the condition is needed. With enough stack: how deep values may be nested depends on the machine. Hypotheses on the library as in C67; no type of the schema may refer to the struct that holds the arguments of a method.")
claim("C70", "proved", "C70_typed C70_canonical C70_rewrite C70_ends C70_truncated",
 "Laws of the library about bytes of unknown origin are hypotheses (Spec/UntrustedDart.lean) and are met by a concrete library. What an existing object holds after an exception is not described. Memory needed by a list before its elements are read belongs to the library.")
claim("C71", "partial", "C71_same_messages_partial C71_same_errors_partial C71_integer_lists_differ",
 "Missing: the types for which the two sides have different formats (char, lists of built-in types and of lists, other generic types, variant numbers beyond 31 bits). C71_integer_lists_differ gives bytes that one side accepts and the other refuses.")
claim("C72", "proved", "C72_typed_results C72_answered C72_completes C72_progress C72_call_progress",
 "The server is replaced by arbitrary writes to the buffers. The library is a parameter: C72_typed_results assumes that it reads values of the requested types, C72_answered that it accepts only what it writes. A history ends at an uncaught exception.")
claim("C73", "proved", "C73_in_order C73_nothing_lost C73_can_complete",
 "The positive counterpart of C35 and C52. The assumptions of C34; in addition nobody but the emitted code writes to the buffers of the method.")
claim("C74", "partial", "C74_kotlin_partial C74_swift_partial C74_kotlin_strings C74_swift_strings C74_kotlin_template C74_swift_escape",
 "Proved for all schemas that can be written down with numbers of digits (without the signs and exponents of C92) and whose strings have no backslash, line break or (Kotlin) template; for strings the exact condition is proved, and false instances are shown. Missing: nothing for those strings; for the others the full statement is false. Assumed: case changes give identifiers and numbers are printed as decimals (Rust's formatting of f64, parameter).")
claim("C75", "partial", "C75_kotlin_partial C75_swift_partial C75_swift_f32 C75_kotlin_range C75_hidden_type C75_swift_suffix",
 "Exact: accepted if and only if the schema meets a written condition. The unrestricted claim is false: 32-bit floating-point constants in Swift, out-of-range integers, blocks that hide a type. The compilers' rules are those written in Spec/MobileConsts; the strings are those of C74.")
claim("C76", "partial", "C76_kotlin_partial C76_swift_partial C76_kotlin_misfit C76_swift_misfit",
  "Typed (names, types, arguments, defaults, sizes) holds of the emitted declarations exactly for the schemas of Fit, for all libraries. The property fails for other accepted schemas: C76_kotlin_misfit and C76_swift_misfit list families (names not in Pascal case, char and address fields, variants A(), hidden types, types that contain themselves). Left out: schemas excluded by NoAccidents.")
claim("C77", "partial", "C77_kotlin_partial C77_kotlin_endless C77_swift_partial",
  "Evaluation of createDefault on the emitted declarations, with a depth of the stack: whatever is returned is the default value, nothing is undefined, and Swift always returns. Kotlin returns exactly for types with a finite default value; C77_kotlin_endless: a struct that contains itself compiles and createDefault never returns. Left out: schemas excluded by NoAccidents.")
claim("C78", "partial", "C78_is_read_partial C78_source_partial C78_round_trip_partial C78_layout_partial C78_skip_partial C78_default_partial C78_typed_partial",
  "An independent reader of the Rust fragment (Spec/RustReader.lean) is applied to the generated characters; the program it returns is unique and has the properties C19-C22, C46, C59. This removes the printed trees from what has to be trusted. Missing: schemas with a Rust keyword as a name (the text is no Rust then, C59_keyword).")
claim("C79", "proved", "C79_names_legal C79_names_from_text", "For every source text, bytes beyond ASCII included.")
claim("C80", "partial", "C80_same_types C80_same_text_partial C80_source_partial",
  "Same types give the same text for all accepted schemas. The converse goes through the reader of C78, so it leaves out schemas with a Rust keyword as a name.")
claim("C81", "partial", "C81_is_read_partial C81_source_partial C81_typed_partial C81_round_trip_partial C81_layout_partial C81_emplace_partial C81_codecs_agree_partial C81_skip_partial C81_unknown_tag_partial C81_exchange_partial",
  "An independent reader of the Dart fragment (Spec/DartReader.lean) is applied to the generated characters; the program it returns is unique and has the properties C23, C25-C29, C60. Missing: schemas with a reserved word of Dart as a name or a variant with empty parentheses (rejected by the Dart compiler, C60_field_name, C60_empty_payload); skipping several values or with other orders of fields (false, C28).")
claim("C82", "partial", "C82_is_read_partial C82_registration C82_sync_call C82_sync_exactly_once C82_async_exactly_once C82_at_most_once_per_request C82_answers_match_requests C82_one_read_in_flight C82_sync_read_partial C82_async_read_partial",
  "An independent reader of the Rust fragment for methods (Spec/RustRpcReader.lean) is applied to the generated characters; the section it returns is unique, and its registration and handlers have the properties C31-C34, C36 and C51 (the reader gets the declared result types, which the text of a handler does not show). Missing: schemas with a keyword of Rust as a name (their text is no Rust, C59_keyword), an id with a quote, backslash or carriage return, and read methods with a built-in result (C51_builtin_result_is_rejected).")
claim("C83", "partial", "C83_is_read_partial C83_addresses C83_sync_call C83_client_answer C83_calls_completed C83_delivered_partial C83_client_stream C83_stream_partial C83_typed",
  "An independent reader of the Dart client class (Spec/DartRpcReader.lean) is applied to the generated characters, next to those of C78, C81 and C82; what they return is unique, and run together it has the properties C31, C32, C34, C35, C58 and C64. Missing: names that are reserved in one of the languages (their text is rejected, C59_keyword, C64_method_name), ids other than words with hyphens, arguments called methodId (C65_method_id), a result type called Future, and what is missing in C35 and C58 (C35_answer_is_lost, C58_repeated, C58_lost).")
claim("C84", "partial", "C84_is_read_partial C84_declares_partial C84_creates_partial C84_typed_partial C84_runs_partial C84_source_partial",
  "An independent reader of Kotlin (Spec/KotlinReader.lean) is applied to the characters of the generated models; what it returns is unique and has the properties C53, C54, C76 and C77; C84_source_partial starts at source text. Missing: names that are reserved in Kotlin or no identifiers after the change of case, and what is missing in C53, C54, C76 and C77.")
claim("C85", "partial", "C85_is_read_partial C85_declares_partial C85_creates_partial C85_typed_partial C85_runs_partial C85_source_partial",
  "An independent reader of Swift (Spec/SwiftReader.lean) is applied to the characters of the generated models; what it returns is unique and has the properties C53, C54, C76 and C77; C85_source_partial starts at source text. Missing: names that are reserved in Swift or no identifiers after the change of case, lists with several types of elements, and what is missing in C53, C54, C76 and C77.")
claim("C86", "partial", "C86_exchange_partial C86_files_partial C86_sync_call_partial C86_calls_completed_partial",
  "Composition of C61 with C78, C81, C82 and C83: from any accepted source text and configuration to the programs that the independent readers find in the characters of the output files. Missing: names that are reserved in one of the languages, ids with other characters than letters, digits and hyphens, and the schemas excluded by C29 and C83.")
claim("C87", "proved", "C87_even_sections C87_uneven_sections C87_unchanged C87_rust_rpc C87_dart_client",
  "For all accepted schemas. Swift under the assumption that the case conversion leaves createDefault alone. In the Dart and Kotlin models the separator between two declarations is a blank line or nothing, depending on the two kinds of declaration.")
claim("C88", "partial", "C88_struct_partial C88_create_partial C88_to_partial C88_is_partial C88_sent_partial C88_hidden_value",
  "Proved for schemas whose names can be told apart in Dart and whose enum classes are accepted by the Dart compiler. Refuted without: a field called value hides the member that toV assigns. Objects are values here; C90 and C91 are about shared objects.")
claim("C89", "partial", "C89_default_partial C89_first_variant_partial C89_returns_iff C89_endless C89_all_variants",
  "Proved for schemas whose names can be told apart in Dart, whose types do not contain themselves, with one type argument for Vec and payloads where a variant announces one; the library's list factory returns the empty list. C89_returns_iff says exactly which factories return. Refuted for a struct that contains itself, and for an enum whose default value exists but whose other variants contain the enum.")
claim("C90", "partial", "C90_write_partial C90_read_partial C90_create_partial C90_emplace_partial C90_others_keep C90_sent_partial C90_shared",
  "The emitted code is run on a memory of objects with references (Sem/DartHeap.lean). Proved for schemas whose names can be told apart in Dart, with defaults and distinct variant numbers as in C25 and C26, and libraries whose list factory returns the empty list. Refuted for reading in place into an object that refers to one part twice: the second field overwrites the first.")
claim("C91", "partial", "C91_struct_partial C91_create_partial C91_to_partial C91_is_partial C91_arguments_kept C91_cycle",
  "The emitted methods are run on a memory of objects with references (Sem/DartHeapMethods.lean). Proved for schemas whose names can be told apart in Dart and whose enum classes are accepted by the Dart compiler, and for toV on objects without shared parts whose arguments do not contain the object or its payload object. Refuted without the latter: leaf.toNode([leaf]) makes an object that stands for no value and cannot be written. The caller's objects are kept, not copied: reading in place into the new object changes them.")

claim("C92", "partial", "C92_point_number C92_decimal_literals C92_integer_literals C92_constants C92_negative C92_exponent",
  "Shape of decimal literals and range of integer literals are proved for every source. That literals have no sign and no exponent is false: 0x_-5 is read as -5 (C92_negative) and 1._e_5 as 1.e5 (C92_exponent), since the character after an underscore is not checked.")
claim("C93", "proved", "C93_rust C93_dart C93_rust_to_dart C93_dart_to_rust C93_swapped",
  "Proved for every pair of schemas of the same shape: C93_rust for all types; C93_dart for all types but library types applied to declared types, and lists of built-in types if a declared type is called Int, Double, Bool or List (Renamable); between the languages for portable types, on which they agree (C29). C93_swapped shows that fields are told apart by place only.")
claim("C94", "proved", "C94_addresses C94_sync_call C94_async_call C94_sync_read C94_async_read C94_swapped",
  "Proved for every pair of interfaces that differ in names (SameInterface); methods with portable types for calls from the Dart client, as in C32. C94_swapped: names do not tell methods apart, so a call of an old client reaches the other one of two methods that traded places.")
claim("C95", "proved", "C95_rust C95_dart C95_rust_variant C95_dart_variant C95_rust_short C95_dart_short C95_nested C95_sync_call C95_async_call C95_missing_sync C95_missing_async C95_stale",
  "Proved for every pair of schemas in which one struct or method has further fields or arguments (MoreFields, MorePayload, MoreArgs, FewerArgs); methods with portable types for calls from the Dart client, as in C32. C95_nested: no such thing for a longer value inside another one. C95_stale is a concrete refutation of compatibility for appended arguments: the missing argument is that of an earlier call.")
claim("C96", "proved", "C96_sync_call C96_async_call C96_inserted C96_removed C96_removed_call",
  "Proved for every pair of accepted schemas; methods with portable types for calls from the Dart client, as in C32.")
claim("C97", "proved", "C97_two_clients C97_created_again",
  "A limit of C34, proved for every accepted schema and every asynchronous method of the Dart client.")
claim("C98", "proved", "C98_run_again C98_idempotent C98_generate_again C98_stale C98_schema_lost C98_rust_rejected C98_dart_rejected C98_overwritten",
  "For all configurations whose outputs are not read again; C98_schema_lost and C98_overwritten show why that is needed: a schema replaced by generated code is never accepted again (C98_rust_rejected for all schemas and sections, C98_dart_rejected with serialization or RPC code; a Dart file of comments only is the empty schema, shown by an example). Paths are strings, as in C47-C49.")
claim("C99", "proved", "C99_exact C99_order C99_same_output",
  "For all configurations whose outputs are not read again (C98 shows why that is needed). C99_same_output: with a common output the order matters. Paths are strings, as in C47-C49.")
C.sort(key=lambda c: c["property"])
here = os.path.dirname(os.path.dirname(os.path.abspath(__file__)))
with open(os.path.join(here, "MANIFEST.json"), "w") as f:
    json.dump({"claims": C}, f, indent=1)
    f.write("\n")
