{"id": "C01", "title": "Tokenizing always finishes and yields an EOF-terminated stream", "statement": "For every schema source text, tokenizing terminates; it either stops with an explicit failure or returns a token sequence whose last token is the end-of-file token and which contains no other end-of-file token. Asking for tokens past the end keeps returning end-of-file.", "quantifier": "all byte strings given as source", "why_tests_cant": "an infinite loop or a missing terminator can hide in any unseen input; tests sample finitely many sources", "anchors": ["src/lexer.rs::tokenize", "src/lexer.rs::Lexer::next_token", "src/lexer.rs::Lexer::current_token"]}
{"id": "C02", "title": "Layout between tokens is insignificant", "statement": "Any sequence of printable tokens, written out with arbitrary spaces, newlines, carriage returns, line comments and block comments between them, tokenizes to exactly that sequence; so two sources that differ only in layout produce the same schema.", "quantifier": "all token sequences and all choices of separators between them", "why_tests_cant": "the space of layouts is infinite and separators interact with every token kind", "anchors": ["src/lexer.rs::tokenize", "src/lexer.rs::lex_comments"]}
{"id": "C03", "title": "Identifiers are read whole and keywords are exact", "statement": "A maximal run of identifier characters is one token: the keyword token if it equals one of the eight reserved words or boolean literals, and otherwise an identifier carrying exactly that text. No identifier that merely starts with a keyword is split.", "quantifier": "all identifiers and all following text", "why_tests_cant": "infinitely many identifiers; prefix/maximal-munch errors show only on particular spellings", "anchors": ["src/lexer.rs::lex_id", "src/lexer.rs::is_char_id"]}
{"id": "C04", "title": "String literals keep their contents", "statement": "A double-quoted literal tokenizes to a string literal holding exactly the characters between the quotes.", "quantifier": "all quote-free contents (any Unicode text)", "why_tests_cant": "contents range over all texts; the failing ones (non-ASCII) are outside the sampled tests", "anchors": ["src/lexer.rs::lex_string", "src/lexer.rs::StringReader"]}
{"id": "C05", "title": "Integer literals denote their exact value or are rejected", "statement": "A decimal or 0x-hexadecimal literal, with single underscores between digits, tokenizes to its exact mathematical value when that value fits in a signed 64-bit integer, and tokenizing fails otherwise; it never wraps or truncates.", "quantifier": "all digit strings with underscore groupings", "why_tests_cant": "values range over unbounded digit strings and the boundary at 2^63", "anchors": ["src/lexer.rs::lex_number"]}
{"id": "C06", "title": "Block comments end at the first closing mark", "statement": "Text between /* and the first following */ is ignored and everything after the */ is tokenized as if the comment were absent.", "quantifier": "all comment bodies and all following text", "why_tests_cant": "bodies range over all texts; a body ending in * is a corner no test covers", "anchors": ["src/lexer.rs::lex_multi_line_comment"]}
{"id": "C07", "title": "Line comments hide exactly the rest of their line", "statement": "Text from // up to and including the next newline or carriage return is ignored and everything after it is tokenized as if the comment were absent.", "quantifier": "all comment bodies without line breaks and all following text", "why_tests_cant": "ranges over all texts", "anchors": ["src/lexer.rs::lex_single_line_comment", "src/lexer.rs::lex_comments"]}
{"id": "C08", "title": "Parsing always finishes", "statement": "For every token stream, parsing terminates with either a schema or an explicit failure.", "quantifier": "all token streams", "why_tests_cant": "nested generics and const blocks recurse to unbounded depth; non-termination shows only on malformed streams", "anchors": ["src/parser.rs::parse", "src/parser.rs::parse_type_id", "src/parser.rs::parse_const"]}
{"id": "C09", "title": "Every well-formed schema is accepted and read back unchanged", "statement": "For every schema value in the language (any number of structs, enums, constants, directives and methods, any nesting of types and constant blocks), parsing its token form, with or without trailing commas, returns exactly that schema, with declarations, fields, variants and arguments in source order.", "quantifier": "all schemas, all nesting depths, all optional-comma choices", "why_tests_cant": "unbounded size and nesting", "anchors": ["src/parser.rs::parse"]}
{"id": "C10", "title": "Schema text round-trip", "statement": "For every well-formed schema, printing it as .tpb source text with any legal layout and then tokenizing and parsing the text returns exactly that schema.", "quantifier": "all schemas and all layouts", "why_tests_cant": "composition of lexer and parser over unbounded inputs", "anchors": ["src/lexer.rs::tokenize", "src/parser.rs::parse"]}
{"id": "C11", "title": "Only schemas of the grammar are accepted", "statement": "If parsing succeeds, the token stream is a sentence of the schema grammar and the returned schema is its meaning; malformed input is rejected and no token is silently ignored.", "quantifier": "all token streams", "why_tests_cant": "acceptance of a malformed stream can only be excluded by considering all streams", "anchors": ["src/parser.rs::parse", "src/parser.rs::parse_type_id", "src/parser.rs::parse_directive"]}
{"id": "C12", "title": "Appending declarations never changes earlier ones", "statement": "If a schema file is accepted, then after appending further declarations the result starts with exactly the same declarations, with the same method addresses, followed by the appended ones, whose method addresses are shifted by the number of methods already there.", "quantifier": "all accepted schemas and all appended texts", "why_tests_cant": "ranges over pairs of schemas", "anchors": ["src/parser.rs::parse", "src/lexer.rs::next_fn_poisition"]}
{"id": "C13", "title": "RPC method addresses are consecutive and unique", "statement": "In every accepted schema the k-th method in source order (fn, read and async alike, counting from zero) has address k; no two methods share an address.", "quantifier": "all accepted schemas, any number and mix of methods", "why_tests_cant": "ranges over all schemas; the counter is shared mutable state in the lexer", "anchors": ["src/lexer.rs::next_fn_poisition", "src/parser.rs::parse_fn", "src/parser.rs::parse_read", "src/parser.rs::parse_async"]}
{"id": "C14", "title": "Field and variant numbers are what the schema says", "statement": "Unnumbered fields and variants are numbered 0,1,2,... in source order; numbered ones get exactly the number written in the schema.", "quantifier": "all accepted structs and enums, all written numbers", "why_tests_cant": "the written number ranges over all 64-bit integers; truncation shows only above 2^32", "anchors": ["src/parser.rs::parse_position", "src/parser.rs::parse_struct_parameters_without_positions", "src/parser.rs::parse_struct_parameters_with_positions", "src/parser.rs::parse_enum_items_with_positions"]}
{"id": "C15", "title": "Accepted enums always have a first variant", "statement": "Every enum in an accepted schema has at least one variant, so generating its default value never fails.", "quantifier": "all accepted schemas", "why_tests_cant": "ranges over all token streams", "anchors": ["src/parser.rs::parse_enum", "src/rust/enum_models.rs", "src/dart/enum_models.rs", "src/kotlin/generator.rs", "src/swift/generator.rs"]}
{"id": "C16", "title": "Built-in type names mean exactly their width and sign", "statement": "The names i8,i32,i64,u8,u32,u64,f32,f64,char,bool denote the built-in types with that width and signedness; every other name denotes a user type with that name; a name followed by a non-empty bracketed type list denotes that generic type, at any nesting.", "quantifier": "all type expressions", "why_tests_cant": "type expressions nest without bound", "anchors": ["src/parser.rs::parse_type_id"]}
{"id": "C17", "title": "Generators never fail on an accepted schema's types", "statement": "For every accepted schema, no generator (Rust, Dart, Kotlin, Swift) fails because of an unsupported integer or float size.", "quantifier": "all accepted schemas", "why_tests_cant": "combines all parser outputs with all generator failure points", "anchors": ["src/dart_generator.rs", "src/kotlin/generator.rs", "src/swift/generator.rs", "src/parser.rs::parse_type_id"]}
{"id": "C18", "title": "Directives are found where they were written", "statement": "Looking up a value directive returns the first directive with that name; looking up a group entry returns all matching entries of all matching groups in source order; directives with other names do not influence the result.", "quantifier": "all directive lists", "why_tests_cant": "ranges over all directive lists and names", "anchors": ["src/ast.rs::find_directive_value", "src/ast.rs::find_directive_group_value", "src/ast.rs::find_directive_group_values"]}
{"id": "C19", "title": "Rust struct serialization round-trips", "statement": "For every accepted schema whose types, fields and variants have distinct names, whose variants have distinct numbers, and in which no variant field is called bytes_writer, generated Rust code that writes a value of a struct type and then reads from the produced bytes (followed by anything) returns the same value and leaves exactly the following bytes.", "quantifier": "all schemas, all struct types (nested, recursive through lists), all values, all trailing bytes", "why_tests_cant": "quantifies over all schemas and values; tests compare text of a few generated files and never execute them", "anchors": ["src/rust/struct_buffers.rs", "src/rust_generator.rs::generate_read", "src/rust_generator.rs::generate_write"]}
{"id": "C20", "title": "Rust enum serialization round-trips", "statement": "For every accepted schema whose types, fields and variants have distinct names, writing an enum value and reading it back returns the same variant with the same payload.", "quantifier": "all schemas, all enums, all variants and payloads", "why_tests_cant": "quantifies over all schemas and values; the failing case (two variants with one number) is accepted silently", "anchors": ["src/rust/enum_buffers.rs"]}
{"id": "C21", "title": "Rust skip passes over exactly the requested number of values", "statement": "Skipping n values of a type leaves the reader exactly where reading n values of that type would leave it, for structs, enums, lists and nested types.", "quantifier": "all schemas, types, values and counts", "why_tests_cant": "counts and values unbounded", "anchors": ["src/rust/struct_buffers.rs", "src/rust/enum_buffers.rs"]}
{"id": "C22", "title": "Wire layout is the documented one", "statement": "A struct is encoded as its fields' encodings in declaration order with nothing in between; an enum value is encoded as the 4-byte number of its variant followed by its payload fields in declaration order; a list as its length followed by its elements.", "quantifier": "all schemas, types and values", "why_tests_cant": "interoperability depends on every schema having this layout", "anchors": ["src/rust/struct_buffers.rs", "src/rust/enum_buffers.rs", "src/dart/struct_into_buffers.rs", "src/dart/enum_into_buffers.rs"]}
{"id": "C23", "title": "Unknown variant numbers are rejected", "statement": "Reading an enum whose 4-byte tag is not the number of any declared variant fails in generated Rust and Dart; it never yields a value.", "quantifier": "all enums and all tag values", "why_tests_cant": "all 2^32 tags times all enums", "anchors": ["src/rust/enum_buffers.rs", "src/dart/enum_into_buffers.rs", "src/dart/enum_emplace_buffers.rs"]}
{"id": "C24", "title": "Encodings are self-delimiting", "statement": "If two values of the same type are encoded and the two byte strings, each followed by arbitrary bytes, are equal, then the values and the trailing bytes are equal; so a sequence of messages in one buffer decodes in only one way.", "quantifier": "all schemas, types, pairs of values and trailing bytes", "why_tests_cant": "quantifies over pairs", "anchors": ["src/rust/struct_buffers.rs", "src/rust/enum_buffers.rs"]}
{"id": "C25", "title": "Dart serialization round-trips", "statement": "For every accepted schema, generated Dart IntoBuffers code that writes a value and reads it back returns the same value and leaves exactly the trailing bytes.", "quantifier": "all schemas, types, values and trailing bytes", "why_tests_cant": "as for C19; the tests never run Dart", "anchors": ["src/dart/struct_into_buffers.rs", "src/dart/enum_into_buffers.rs", "src/dart_generator.rs::generate_read", "src/dart_generator.rs::generate_write"]}
{"id": "C26", "title": "Dart in-place reading fully overwrites the model", "statement": "Reading into an existing Dart model object gives the decoded value whatever the object held before: no stale field or stale variant survives.", "quantifier": "all schemas, types, values and all previous object contents", "why_tests_cant": "the previous contents are arbitrary history", "anchors": ["src/dart/struct_emplace_to_buffers.rs", "src/dart/enum_emplace_buffers.rs"]}
{"id": "C27", "title": "The two Dart codecs agree byte for byte", "statement": "The IntoBuffers and EmplaceToBuffers classes generated for one type write identical bytes for the same value.", "quantifier": "all schemas, types and values", "why_tests_cant": "ranges over all schemas and values", "anchors": ["src/dart/struct_into_buffers.rs", "src/dart/struct_emplace_to_buffers.rs", "src/dart/enum_into_buffers.rs", "src/dart/enum_emplace_buffers.rs"]}
{"id": "C28", "title": "Dart skip passes over exactly the requested number of values", "statement": "In generated Dart code, skipping n values leaves the reader exactly where reading n values would leave it.", "quantifier": "all schemas, types, values and counts", "why_tests_cant": "fails only for structs with nested user types and suitable counts; no test runs the generated code", "anchors": ["src/dart/struct_into_buffers.rs", "src/dart/struct_emplace_to_buffers.rs", "src/dart/enum_into_buffers.rs"]}
{"id": "C29", "title": "Rust and Dart interoperate", "statement": "Bytes written by generated Rust code for a value are read by generated Dart code as the same value and vice versa.", "quantifier": "all schemas, types and values", "why_tests_cant": "relates two generators over all schemas; no test runs either", "anchors": ["src/rust_generator.rs", "src/dart_generator.rs"]}
{"id": "C30", "title": "Unsigned integers survive the trip to Dart", "statement": "An unsigned field value written by Rust is seen in Dart as the same non-negative number.", "quantifier": "all unsigned widths and values", "why_tests_cant": "fails only on the upper half of the range", "anchors": ["src/dart_generator.rs::generate_read"]}
{"id": "C31", "title": "Both sides agree on method addresses and groups", "statement": "For every accepted schema the generated Rust registration code registers each method exactly once, at the address equal to its index, in the group that its kind calls for, and the generated Dart client uses that same address for that method.", "quantifier": "all accepted schemas", "why_tests_cant": "relates two generators over all schemas", "anchors": ["src/rust/rpc.rs::generate_register_fn", "src/dart/rpc.rs"]}
{"id": "C32", "title": "A synchronous call returns the function's result", "statement": "When a client writes a request for a synchronous method and the server handler runs, the client reads back exactly the encoded result of applying the user function to the decoded arguments, for any prior buffer contents.", "quantifier": "all method signatures, arguments, functions and prior memory states", "why_tests_cant": "quantifies over arbitrary prior state and user functions", "anchors": ["src/rust/rpc.rs::generate_sync_rpc_method", "src/dart/rpc.rs"]}
{"id": "C33", "title": "A request is executed exactly once", "statement": "After a request is written, the first handler run executes the user function once and consumes the request; any number of further handler runs without a new request execute nothing, report no work, and leave both buffers unchanged.", "quantifier": "all histories of requests and handler runs", "why_tests_cant": "holds over unbounded schedules", "anchors": ["src/rust/rpc.rs::generate_sync_rpc_method", "src/rust/rpc.rs::generate_async_rpc_method"]}
{"id": "C34", "title": "Asynchronous results reach their own caller", "statement": "Every asynchronous response completes exactly the pending call that carries its method id, with that call's result, removes it, and leaves all other pending calls untouched, for responses in any order and with duplicates.", "quantifier": "all interleavings of calls and responses", "why_tests_cant": "quantifies over all schedules", "anchors": ["src/dart/rpc.rs", "src/rust/rpc.rs::generate_async_rpc_method"]}
{"id": "C35", "title": "No asynchronous response is lost", "statement": "Every asynchronous request that the server has accepted is eventually answered to its caller once the client has polled, whatever the completion order.", "quantifier": "all schedules of completions and client polls", "why_tests_cant": "the loss needs two completions between two polls", "anchors": ["src/rust/rpc.rs::generate_async_rpc_method", "src/dart/rpc.rs"]}
{"id": "C36", "title": "At most one background read runs at a time", "statement": "For an async read method, in every schedule of polls and completions at most one instance of the user future is in flight.", "quantifier": "all schedules of polls and completions", "why_tests_cant": "unbounded schedules", "anchors": ["src/rust/rpc.rs::generate_async_read_rpc_method"]}
{"id": "C37", "title": "A background read can always run again", "statement": "For an async read method, after the running future has finished, the next poll starts it again.", "quantifier": "all schedules of polls and completions", "why_tests_cant": "liveness over unbounded schedules", "anchors": ["src/rust/rpc.rs::generate_async_read_rpc_method"]}
{"id": "C38", "title": "Section switches remove exactly their section", "statement": "Turning models, buffers or RPC generation off removes that section (and the imports only it needs) and changes nothing else in the other sections' text.", "quantifier": "all schemas and all switch combinations", "why_tests_cant": "ranges over all schemas", "anchors": ["src/rust_generator.rs::generate", "src/dart_generator.rs::generate", "src/main.rs"]}
{"id": "C39", "title": "Generated files end in a single newline", "statement": "The generated file never ends in a blank line and always ends in exactly one newline, for every schema and every switch combination.", "quantifier": "all schemas and all switch combinations", "why_tests_cant": "trailing blank lines depend on which sections are empty", "anchors": ["src/rust_generator.rs::generate", "src/dart_generator.rs::generate"]}
{"id": "C40", "title": "Constants are emitted with their value", "statement": "Every constant of the schema, at any block depth, is emitted once, in order, with a literal that denotes the same value.", "quantifier": "all constant blocks, any depth; all values", "why_tests_cant": "unbounded nesting and all 64-bit values", "anchors": ["src/rust/consts.rs", "src/dart/consts.rs", "src/rust_generator.rs::generate_const_value"]}
{"id": "C41", "title": "String constants are emitted intact", "statement": "A string constant's emitted literal denotes exactly the string of the schema.", "quantifier": "all strings", "why_tests_cant": "strings with backslashes are outside the tests", "anchors": ["src/rust_generator.rs::generate_const_value", "src/dart_generator.rs::generate_const_value"]}
{"id": "C42", "title": "Distinct constant blocks get distinct Dart classes", "statement": "Two different constant blocks are emitted as Dart classes with different names.", "quantifier": "all pairs of block paths", "why_tests_cant": "the collision needs a particular pair of paths", "anchors": ["src/dart/consts.rs"]}
{"id": "C43", "title": "Kotlin and Swift types keep width and sign", "statement": "Every built-in type is emitted as the Kotlin/Swift type with the same width and signedness, lists as lists of the mapped element type, to any depth; two different built-in types are never emitted as the same type.", "quantifier": "all type expressions", "why_tests_cant": "unbounded nesting", "anchors": ["src/kotlin/ir.rs::generate_type_id", "src/swift/ir.rs::generate_type_id"]}
{"id": "C44", "title": "Kotlin and Swift definitions match their uses", "statement": "The name under which a type or field is declared in generated Kotlin/Swift is the name by which other generated code refers to it.", "quantifier": "all accepted schemas", "why_tests_cant": "depends on the spelling of every identifier", "anchors": ["src/kotlin/ir.rs", "src/kotlin/generator.rs", "src/swift/ir.rs", "src/swift/generator.rs"]}
{"id": "C45", "title": "Indentation is always balanced", "statement": "Printing any Kotlin or Swift declaration tree returns the writer to the indentation it started with and never closes more levels than were opened, at any nesting depth.", "quantifier": "all declaration trees, any depth", "why_tests_cant": "unbounded nesting; underflow would crash the generator", "anchors": ["src/writer.rs", "src/kotlin/ir.rs::write_tokens", "src/swift/ir.rs::write_tokens"]}
{"id": "C46", "title": "Default values are the first variant and per-field zeros", "statement": "The generated default of an enum is its first variant in source order with default payload, and the generated default of a struct sets every field, in order, to the zero value of its type.", "quantifier": "all accepted schemas", "why_tests_cant": "ranges over all schemas", "anchors": ["src/rust/struct_models.rs", "src/rust/enum_models.rs", "src/rust_generator.rs::generate_default_const"]}
{"id": "C47", "title": "A rejected schema never touches the output file", "statement": "If reading, tokenizing, parsing or generating fails, no file is created, truncated or modified.", "quantifier": "all inputs, file-system states and failure points", "why_tests_cant": "quantifies over all failure points", "anchors": ["src/main.rs::generate"]}
{"id": "C48", "title": "Batch generation is in order and stops at the first error", "statement": "A YAML run performs exactly the single-file generations of its rust entries in order, then of its dart entries in order; at the first failing entry it stops, entries before it have been written completely and entries after it have no effect.", "quantifier": "all configurations and all failure positions", "why_tests_cant": "quantifies over list length and failure position", "anchors": ["src/main.rs"]}
{"id": "C49", "title": "A crash while writing leaves old or new output", "statement": "If the process is killed at any point, the output file holds either its complete old or its complete new contents.", "quantifier": "all crash points", "why_tests_cant": "every crash point between create and the last byte", "anchors": ["src/main.rs::generate"]}
{"id": "C50", "title": "Generated RPC helper names do not clash", "statement": "Two methods with different names get different generated argument-struct, handler and read/write helper names.", "quantifier": "all pairs of method names", "why_tests_cant": "ranges over all pairs of names", "anchors": ["src/rust/rpc.rs", "src/dart/rpc.rs"]}
{"id": "C51", "title": "Read methods deliver the function's value", "statement": "When the handler of a read method runs and the user function yields a value, the client buffer then begins with the encoding of exactly that value; when it yields nothing, both buffers stay as they are.", "quantifier": "all read methods, values and prior buffer contents", "why_tests_cant": "ranges over all return types, values and buffer contents", "anchors": ["src/rust/rpc.rs::generate_sync_read_rpc_method", "src/rust/rpc.rs::generate_async_read_rpc_method"]}
{"id": "C52", "title": "No request is lost", "statement": "Every request of a method that a client writes into the method's server buffer is executed: whenever the server has nothing left to do, the user function has been called with given arguments exactly as often as it has been requested with them.", "quantifier": "all methods that are not read methods, all arguments, and all interleavings of client writes with the statements of the handler and of spawned futures", "why_tests_cant": "a request is lost only in certain interleavings of the client with the handler; the claim ranges over all histories", "anchors": ["src/rust/rpc.rs::generate_rpc_method", "src/rust/rpc.rs::generate_async_rpc_method", "src/dart/rpc.rs"]}
{"id": "C53", "title": "Kotlin and Swift models declare what the schema declares", "statement": "The generated Kotlin and Swift models contain exactly one type for every struct and every enum of the schema, with all its fields and variants in the order of the schema, each with the Kotlin or Swift type of its schema type, and nothing else; the declarations are valid.", "quantifier": "all accepted schemas, and all conversions of identifiers to camel and Pascal case", "why_tests_cant": "ranges over all schemas: any number of declarations, fields, variants and nested types", "anchors": ["src/kotlin/ir.rs", "src/kotlin/generator.rs", "src/swift/ir.rs", "src/swift/generator.rs"]}
{"id": "C54", "title": "Kotlin and Swift default values", "statement": "The createDefault function of a generated Kotlin or Swift type returns the type's zero value: every field, by its name and in order, gets zero, false, the empty string, the empty list or the default of its own type, and an enum gets its first variant with such values.", "quantifier": "all accepted schemas, and all conversions of identifiers to camel and Pascal case", "why_tests_cant": "ranges over all schemas and all types of fields", "anchors": ["src/kotlin/ir.rs::generate_default_const_value", "src/swift/ir.rs::generate_default_const_value"]}
{"id": "C55", "title": "Adding to a schema keeps the bytes of existing values", "statement": "If a schema is changed only by adding declarations, adding variants to enums, and changing the order of declarations and of numbered variants, then code generated from the old and from the new schema write the same bytes for every value of the old schema, and each reads what the other wrote as the same value. A value of a new variant is rejected by code of the old schema, not misread.", "quantifier": "all pairs of accepted schemas of which one extends the other, all types and values of the old schema, all bytes that follow", "why_tests_cant": "ranges over all pairs of schemas and all values, of any depth", "anchors": ["src/rust/struct_buffers.rs", "src/rust/enum_buffers.rs", "src/dart/struct_into_buffers.rs", "src/dart/enum_into_buffers.rs", "src/parser.rs"]}
{"id": "C56", "title": "Old clients keep working with a server that has more methods", "statement": "If methods are appended to a schema, and types extended, then a client generated from the old schema works with a server generated from the new one: every method is registered at the address that the client uses; a synchronous call reaches the user's function of the same method, once, with the same values, and its result is returned to the caller; a request for an asynchronous method makes the server call the function of that method once with the same values, and the answer is the one of the old schema to that request, with its method id. A read method whose result type is not built in (code for others is rejected) calls the function of that method and sends the answer of the old schema.", "quantifier": "all pairs of accepted schemas of which one extends the other, all methods of the old one, all arguments, results, buffer contents and orders of handlers", "why_tests_cant": "ranges over all pairs of schemas, all values and all states of the buffers", "anchors": ["src/rust/rpc.rs", "src/dart/rpc.rs", "src/parser.rs::parse_fn"]}
{"id": "C57", "title": "Numbers of struct fields determine the layout", "statement": "A struct whose fields are numbered is written as its fields in the order of their numbers, so that the order in which numbered fields are declared can be changed without changing the bytes.", "quantifier": "all accepted schemas with numbered fields, all values", "why_tests_cant": "ranges over all schemas, all orders of fields and all values", "anchors": ["src/rust/struct_buffers.rs", "src/dart/struct_into_buffers.rs", "src/parser.rs::parse_struct_parameters_with_positions"]}
{"id": "C58", "title": "The streams of read methods", "statement": "Each value that the function of a read method yields on the server is delivered exactly once, and in the order of the yields, in the client's stream of that method; nothing else is ever delivered in it.", "quantifier": "all accepted schemas, all read methods, all interleavings of server steps, client calls and runs of the client's read tasks, all values", "why_tests_cant": "depends on the interleaving of server polls, completions and client reads, and on what the shared buffer held before", "anchors": ["src/dart/rpc.rs::generate_read_rpc_method", "src/dart/rpc.rs::generate_async_rpc_connect_method", "src/rust/rpc.rs::generate_async_read_rpc_method", "src/rust/rpc.rs::generate_sync_read_rpc_method"]}
{"id": "C59", "title": "Generated Rust types and codecs type-check", "statement": "The Rust declarations, default values and codecs generated for an accepted schema, all of whose types exist, are accepted by the Rust type checker: all names resolve, no two declarations clash, each expression has the type that its place requires, record literals and matches are complete, and no type has infinite size.", "quantifier": "all accepted schemas, all sets of imported types", "why_tests_cant": "ranges over all schemas: any name, any nesting of types and any combination of declarations may appear", "anchors": ["src/rust/struct_models.rs", "src/rust/enum_models.rs", "src/rust/struct_buffers.rs", "src/rust/enum_buffers.rs"]}
{"id": "C60", "title": "Generated Dart models and codecs are accepted by the Dart compiler", "statement": "The Dart model classes, factories and codec classes generated for an accepted schema, all of whose types and library codecs exist, are accepted by the Dart compiler: all names resolve to what is meant, no two declarations or members clash, each expression has the type that its place requires, all fields are initialised and constructor calls are complete.", "quantifier": "all accepted schemas, all imported libraries, all conversions of names", "why_tests_cant": "ranges over all schemas: any name and any combination of declarations may appear, and clashes arise only for particular names", "anchors": ["src/dart_generator.rs", "src/dart/enum_models.rs", "src/dart/struct_into_buffers.rs", "src/dart/struct_emplace_to_buffers.rs", "src/dart/enum_into_buffers.rs", "src/dart/enum_emplace_buffers.rs"]}
{"id": "C61", "title": "From schema files to exchanged values", "statement": "If a configuration asks for Rust and for Dart code from one schema file and the run succeeds, then the two output files hold programs that agree: a value written by the code in the one file is read as the same value by the code in the other, a value survives writing and reading within one language, and calls made by the client in the Dart file are answered by the handlers in the Rust file. Whether such a run can succeed depends on the directives of the schema only.", "quantifier": "all schemas and all texts of them (layouts, comments), all configurations with other entries that write other files, all states of the file system, all values, all histories of calls", "why_tests_cant": "the claim spans the lexer, the parser, both generators, the file handling and the meaning of the generated code, for every schema, text and value at once", "anchors": ["src/main.rs", "src/lexer.rs", "src/parser.rs", "src/rust_generator.rs", "src/dart_generator.rs"]}
{"id": "C62", "title": "Generated Rust RPC code type-checks", "statement": "For an accepted schema with methods, the generated Rust file with its types, codecs, argument structs, handlers and registration function is accepted by the Rust type checker as soon as the user provides the functions that the schema declares: names resolve to what is meant, nothing clashes, arguments, results and captured variables have the types that their places require, and each handler has the signature under which it is registered.", "quantifier": "all accepted schemas with methods, all sets of imported types, all user functions of the declared types", "why_tests_cant": "ranges over all schemas and all names of methods, arguments and types, any of which may hide a variable or a function of the generated code", "anchors": ["src/rust/rpc.rs", "src/rust_generator.rs"]}
{"id": "C63", "title": "Generated constants type-check", "statement": "For an accepted schema with constants, the constants in the generated Rust file and in the generated Dart file are accepted by the compilers: every literal has the declared type and fits its range, no name is declared twice or hides a type, and no name is a reserved word.", "quantifier": "all accepted schemas with constants, at any depth of blocks, all literals and declared types, all integer fields of the runtime library's address types", "why_tests_cant": "ranges over all combinations of names, blocks, types and literals; the parser relates none of them", "anchors": ["src/rust/consts.rs", "src/dart/consts.rs", "src/rust_generator.rs::generate_const_value", "src/parser.rs"]}
{"id": "C64", "title": "Generated Dart RPC client type-checks", "statement": "For an accepted schema with methods, a namespace and an id, the generated Dart file with its models, codecs and client class is accepted by the Dart compiler: names resolve to what is meant and are declared once, the client class overrides no inherited member wrongly, and arguments, results, completers and stream controllers have the types that their places require.", "quantifier": "all accepted schemas with methods, a namespace and an id, all imported libraries", "why_tests_cant": "ranges over all names of namespaces, methods, arguments and types, any of which may hide a variable, a member or a library class of the generated code", "anchors": ["src/dart/rpc.rs", "src/dart_generator.rs"]}
{"id": "C65", "title": "A call sends its own arguments", "statement": "When a client calls a generated Dart method, what is written to the request buffer of that method is the marker, for asynchronous methods the id of the request, and the bytes of exactly the values passed as arguments, in the order of the schema; nothing else is written to any buffer.", "quantifier": "all schemas whose client the Dart compiler accepts, all methods, all argument values, all states of the client and all contents of the buffers", "why_tests_cant": "ranges over all argument names, which may be hidden by a variable of the generated method without the compiler noticing, and over all values and states", "anchors": ["src/dart/rpc.rs", "src/dart_generator.rs"]}
{"id": "C66", "title": "After disconnect nothing arrives", "statement": "For a client that the Dart compiler accepts: disconnect can be called at any time and repeatedly without an exception. Afterwards no future completes, no stream carries another value, no read of the client is run again, and all streams are closed; before it nothing is held back. Calls made afterwards are still sent, but their futures never complete.", "quantifier": "all accepted schemas with methods whose client compiles, all servers, user functions and buffers, all histories before and after disconnect", "why_tests_cant": "ranges over all interleavings of server steps, calls, reads and calls of disconnect, and over all sets of methods", "anchors": ["src/dart/rpc.rs::generate_disconnect", "src/dart/rpc.rs::generate_constructor"]}
{"id": "C67", "title": "Reading arbitrary bytes is safe in Rust", "statement": "Whatever bytes generated Rust code is given to read a value from: it returns a value of the type, at every depth, or panics; it uses stack at most proportional to the number of bytes; if it returns a value, the bytes consumed are the encoding of that value, so a message that has been cut off is never taken for a value.", "quantifier": "all accepted schemas with distinct names, all types, all byte strings, all runtime libraries with the laws stated", "why_tests_cant": "ranges over all byte strings, including hostile ones, and over all (recursive) schemas", "anchors": ["src/rust/struct_buffers.rs", "src/rust/enum_buffers.rs", "src/rust_generator.rs"]}
{"id": "C68", "title": "Arbitrary requests never reach a function with wrong arguments", "statement": "Whatever bytes are written to the buffers of a server, by anyone and at any time: a user function is called only for the method of that name, at its address, and only with values of the declared argument types. If the runtime library accepts only what it writes, the function of a method that is called by request is called only with the arguments of a request that was in the method's buffer.", "quantifier": "all accepted schemas with methods and distinct names, all histories of handler runs, futures, requests and buffer contents, all user functions, all byte strings", "why_tests_cant": "ranges over all byte strings written at all moments of all interleavings", "anchors": ["src/rust/rpc.rs", "src/rust/struct_buffers.rs", "src/rust/enum_buffers.rs"]}
{"id": "C69", "title": "A server that compiles does not get stuck", "statement": "Whatever bytes are written to the buffers of a server, by anyone and at any time, as long as the user's functions return values of the declared types: a running handler always executes its next statement or returns, and a spawned future always executes its next statement, awaits the user's function or has ended. The one exception is that a handler panics where it reads the buffer of its method, and it does so only if the buffer does not start with a status byte, or announces a request and holds none.", "quantifier": "all accepted schemas with methods whose generated Rust code compiles, all histories of handler runs, futures, requests and buffer contents, all user functions of the declared types, all byte strings", "why_tests_cant": "ranges over all byte strings written at all moments of all interleavings, and over all schemas", "anchors": ["src/rust/rpc.rs", "src/rust/struct_buffers.rs", "src/rust/enum_buffers.rs"]}
{"id": "C70", "title": "Reading arbitrary bytes with the generated Dart code is safe", "statement": "Whatever bytes the generated Dart code is given, reading a value of a type ends: it returns an object that stands for a value of that type, at every depth, and leaves the reader at a suffix of the bytes, or it throws. The same holds for reading into an existing object. If the runtime library accepts only what it writes, then so does the generated code: writing the object that was read gives back exactly the bytes that were taken. A message that has been cut off is never taken for a value.", "quantifier": "all accepted schemas whose names can be told apart in Dart and whose types have default objects, all types, all byte strings, all existing objects, all amounts of stack", "why_tests_cant": "ranges over all byte strings, also those that no writer produces, and over all schemas", "anchors": ["src/dart/struct_into_buffers.rs", "src/dart/enum_into_buffers.rs", "src/dart/struct_emplace_to_buffers.rs", "src/dart/enum_emplace_buffers.rs", "src/dart_generator.rs::generate_read"]}
{"id": "C71", "title": "Rust and Dart accept the same messages", "statement": "For the types that both sides lay out in the same way, and with runtime libraries that use the same formats and accept only what they write: whatever the bytes are, the generated Rust code reads a value from them exactly if the generated Dart code does; both stop at the same place, and the Dart object stands for the value that Rust read. The Rust code panics exactly if the Dart code throws.", "quantifier": "all accepted schemas whose names can be told apart in both languages, all types, all byte strings", "why_tests_cant": "ranges over all byte strings, also those that no writer produces, and over all schemas; the tests run neither language", "anchors": ["src/rust/struct_buffers.rs", "src/rust/enum_buffers.rs", "src/dart/struct_into_buffers.rs", "src/dart/enum_into_buffers.rs", "src/dart_generator.rs::generate_read"]}
{"id": "C72", "title": "Dart clients whose buffers hold arbitrary bytes", "statement": "Whatever anybody writes to the buffers and whenever: the program gets from the emitted Dart client only objects of the declared types. A synchronous call returns the result of an answer in the buffer of its method. Each asynchronous call returns a future of its own; a future is completed at most once, and only if the buffer of the method held an answer with the method id of that very call; streams deliver only values that were in the buffer of their method. An answer in the buffer of a method completes the pending call that it belongs to. A read task ends without an error unless the bytes in its buffer cannot be understood, and a call with arguments of the declared types fails only if it is synchronous and there is no answer.", "quantifier": "all accepted schemas whose Dart names can be told apart, all contents of the buffers, all histories of writes, calls and task runs in any order and of any length", "why_tests_cant": "ranges over all byte strings, all interleavings of calls and task runs, and all schemas; the tests compare generated text and never run it", "anchors": ["src/dart/rpc.rs::generate_async_rpc_method", "src/dart/rpc.rs::generate_async_rpc_connect_method", "src/dart/rpc.rs::generate_sync_rpc_method", "src/dart/rpc.rs::generate_read_rpc_method", "src/dart/struct_into_buffers.rs"]}
{"id": "C73", "title": "One call at a time: nothing is lost", "statement": "If a program calls an asynchronous method only when all its earlier calls of that method have been completed, nothing is lost, whatever the server, the other methods and the schedulers do in between: the user's function is executed exactly once for each call, in the order of the calls and with their arguments, each call is completed only with the result of its own execution, and when the server has nothing left to do for the method, running the client's read task completes the call that is still open; and at any moment at which no handler of another method is running, the server can carry on so that the next run of the read task completes the open call.", "quantifier": "all accepted schemas, all asynchronous methods, all histories of server steps, client calls and task runs of any length in which the calls of the method are made one at a time", "why_tests_cant": "ranges over all interleavings of two programs and all argument values; the tests compare generated text and never run it", "anchors": ["src/rust/rpc.rs::generate_async_rpc_method", "src/dart/rpc.rs::generate_async_rpc_method"]}
{"id": "C74", "title": "Kotlin and Swift constants keep their value", "statement": "The Kotlin and the Swift file generated for a schema declare exactly its constants, in its order and with its nesting of blocks, under their case-converted names, with the declared types, and each with the value written in the schema (numbers equal, strings character for character).", "quantifier": "all accepted schemas with constants, nested to any depth, and all literals", "why_tests_cant": "ranges over all nestings of blocks and all literals, including every string; the tests compare one file of constants", "anchors": ["src/kotlin/generator.rs::generate_consts", "src/kotlin/generator.rs::generate_const_block", "src/swift/generator.rs::generate_consts", "src/swift/generator.rs::generate_const_block", "src/kotlin/ir.rs", "src/swift/ir.rs"]}
{"id": "C75", "title": "Kotlin and Swift constants type-check", "statement": "The Kotlin and the Swift file of constants generated for an accepted schema is accepted by the compiler of its language: no name is declared twice or reserved, every literal belongs to the declared type and is in its range, and the names of types mean the types.", "quantifier": "all accepted schemas with constants", "why_tests_cant": "ranges over all schemas, names and literals; the tests compare generated text and never compile it", "anchors": ["src/kotlin/generator.rs::generate_const_block", "src/swift/generator.rs::generate_const_block", "src/kotlin/ir.rs", "src/swift/ir.rs"]}
{"id": "C76", "title": "Kotlin and Swift models type-check", "statement": "The Kotlin and the Swift models generated for an accepted schema are accepted by the compiler of their language: no name is declared twice or reserved, every type that is used exists, every default value has the type of its field, constructors and cases are called with the arguments they have, and no Swift type contains itself.", "quantifier": "all accepted schemas and all libraries they refer to", "why_tests_cant": "ranges over all schemas; the tests compare generated text and never compile it", "anchors": ["src/kotlin/generator.rs::generate_models", "src/kotlin/generator.rs::generate_struct_model", "src/kotlin/generator.rs::generate_enum_model", "src/swift/generator.rs::generate_models", "src/swift/generator.rs::generate_struct_model", "src/swift/generator.rs::generate_enum_model", "src/kotlin/ir.rs", "src/swift/ir.rs"]}
{"id": "C77", "title": "createDefault of Kotlin and Swift models returns the default value", "statement": "In Kotlin and Swift models that compile, createDefault() of every struct and enum returns, and it returns the default value: numbers are zero, booleans false, strings and lists empty, all fields of a struct are set to their default values, and an enum is its first variant with default values.", "quantifier": "all accepted schemas whose models compile and all their structs and enums", "why_tests_cant": "ranges over all schemas with arbitrarily nested types; the tests compare generated text and never run it", "anchors": ["src/kotlin/generator.rs::generate_struct_model", "src/kotlin/generator.rs::generate_enum_model", "src/kotlin/ir.rs::generate_default_const_value", "src/swift/generator.rs::generate_struct_model", "src/swift/generator.rs::generate_enum_model", "src/swift/ir.rs::generate_default_const_value"]}
{"id": "C78", "title": "The generated Rust text itself means the specified types and codecs", "statement": "Read as Rust source by an independent reader (words, symbols and literals, then recursive descent, names checked against the keywords), the two generated sections for types denote exactly one program: the declared types in order, their Default implementations and their read, write and skip implementations. That program round-trips every value, writes the documented layout, skips what it would read, returns the documented defaults, and is accepted by the compiler exactly when the schema is typable.", "quantifier": "all accepted schemas (or accepted source texts) whose names are not Rust keywords, all types, values and byte strings", "why_tests_cant": "golden tests compare text with text; no test can read the text back for every schema", "anchors": ["src/rust/struct_models.rs", "src/rust/enum_models.rs", "src/rust/struct_buffers.rs", "src/rust/enum_buffers.rs", "src/writer.rs::Writer"]}
{"id": "C79", "title": "Names in an accepted schema are identifiers", "statement": "Every name in a schema read from a source text (types, fields, variants, methods, arguments, constants, directive keys, and names inside types) is an ASCII identifier that does not start with a digit and is not a reserved word of the schema language, and it occurs in the text as a token.", "quantifier": "all source texts, including arbitrary bytes, and all names of the schema they denote", "why_tests_cant": "ranges over all texts; a character class with one character too many or too few shows only on that character", "anchors": ["src/lexer.rs::is_char_id", "src/lexer.rs::lex_id", "src/parser.rs::parse"]}
{"id": "C80", "title": "Rust types and codecs depend exactly on the declared types", "statement": "Two schemas get the same Rust types and codecs if and only if they declare the same types: the same structs and enums in the same order with the same names, field names, field types, variant names, payloads and variant numbers. Methods, constants, directives and field numbers have no effect; nothing of the declared types is lost.", "quantifier": "all pairs of accepted schemas (for the direction from text to schema: without Rust keywords as names)", "why_tests_cant": "relates the outputs of every pair of schemas", "anchors": ["src/rust/mod.rs", "src/rust/struct_models.rs", "src/rust/enum_models.rs", "src/rust/struct_buffers.rs", "src/rust/enum_buffers.rs"]}
{"id": "C81", "title": "The generated Dart text itself means the specified classes and codecs", "statement": "Read as Dart source by an independent reader (words, symbols and literals, then recursive descent, names checked against the reserved words), the two generated sections for types denote exactly one program: the model classes with their factories and the codec classes. That program is accepted by the Dart compiler, round-trips every value, writes the documented layout, overwrites existing objects, writes the same bytes with both codecs, throws on unknown variant numbers, and exchanges values with the program that is read from the generated Rust text.", "quantifier": "all accepted schemas (or accepted source texts) whose names are no reserved words of Dart and that have no variant with empty parentheses, all types, values and byte strings", "why_tests_cant": "golden tests compare text with text; no test can read the text back for every schema", "anchors": ["src/dart_generator.rs", "src/dart/enum_models.rs", "src/dart/struct_into_buffers.rs", "src/dart/struct_emplace_to_buffers.rs", "src/dart/enum_into_buffers.rs", "src/dart/enum_emplace_buffers.rs", "src/writer.rs::Writer"]}
{"id": "C82", "title": "The generated Rust text for methods itself means the specified registration and handlers", "statement": "Read as Rust source by an independent reader (words, symbols and literals, then recursive descent, names checked against the keywords), the generated section for methods denotes exactly one program: the registration function, the argument structs and the handlers. Run as that program, the methods are registered at their declaration index in the group of their kind, a synchronous request is answered with the result of one call with exactly its arguments, an asynchronous request runs once and is answered under its own id, in no history is a request executed twice, no answer is visible that belongs to no request, and an asynchronous read has at most one call in flight.", "quantifier": "all accepted schemas whose names are no keywords of Rust and can be told apart, all requests, buffer contents, user functions, and histories of polls, statements, futures and client writes", "why_tests_cant": "golden tests compare text with text; what the text does must hold for every schema, request and interleaving", "anchors": ["src/rust/rpc.rs", "src/rust_generator.rs", "src/writer.rs::Writer"]}
{"id": "C83", "title": "The generated Dart client and the generated Rust server, read as text, work together as specified", "statement": "Read by independent readers, the four generated sections (types and codecs in Rust, methods in Rust, types and codecs in Dart, the client class in Dart) denote exactly one program each. Run together as those programs: client and server use the same scope and addresses; a synchronous call of the client calls the user's function exactly once with the given arguments and returns its result; in every history no future is completed twice, a completed future has the result of its own call, an answer that is there when its task runs completes the call it answers; streams hold values that the read method returned, in order; and the file with the client class is accepted by the Dart compiler exactly if the names are suitable.", "quantifier": "all accepted schemas with methods whose names can be names in both languages, all argument objects, buffer contents, user functions, method id rotations and histories of client calls, read tasks, server polls, statements and futures", "why_tests_cant": "golden tests compare text with text; what both texts do together must hold for every schema, argument and interleaving", "anchors": ["src/dart/rpc.rs", "src/dart_generator.rs", "src/rust/rpc.rs", "src/rust_generator.rs", "src/writer.rs::Writer"]}
{"id": "C84", "title": "The generated Kotlin models, read as text, declare the schema and create its defaults", "statement": "Read by an independent reader of Kotlin, the text of the generated models denotes exactly one list of declarations. It has a declaration for each struct and enum with the fields and variants in order and their types; its createDefault functions give every field the zero value of its type; it is accepted by the Kotlin compiler exactly if the schema fits; and running createDefault returns the default value of the type whenever there is one.", "quantifier": "all accepted schemas whose names can be names in the language, all libraries they refer to and all types of the schema", "why_tests_cant": "golden tests compare text with text; that the text is a program with this meaning must hold for every schema", "anchors": ["src/kotlin/generator.rs::generate_models", "src/kotlin/generator.rs::generate_struct_model", "src/kotlin/generator.rs::generate_enum_model", "src/kotlin/ir.rs", "src/writer.rs::Writer"]}
{"id": "C85", "title": "The generated Swift models, read as text, declare the schema and create its defaults", "statement": "Read by an independent reader of Swift, the text of the generated models denotes exactly one list of declarations. It has a declaration for each struct and enum with the fields and variants in order and their types; its createDefault functions give every field the zero value of its type; it is accepted by the Swift compiler exactly if the schema fits; and running createDefault returns the default value of the type whenever there is one.", "quantifier": "all accepted schemas whose names can be names in the language, all libraries they refer to and all types of the schema", "why_tests_cant": "golden tests compare text with text; that the text is a program with this meaning must hold for every schema", "anchors": ["src/swift/generator.rs::generate_models", "src/swift/generator.rs::generate_struct_model", "src/swift/generator.rs::generate_enum_model", "src/swift/ir.rs", "src/writer.rs::Writer"]}
{"id": "C86", "title": "The generated files on disk, read as text, are programs that work together", "statement": "After a successful run on a configuration that asks for Rust and Dart code from one schema file, the two output files consist of their fixed beginning and of sections that independent readers of Rust and Dart understand. The types and codecs found there exchange every value in both directions; the server and the client found there complete every synchronous and asynchronous call with the value the user's function returned for its arguments.", "quantifier": "all configurations, file systems, source texts that are accepted, schemas whose names can be names in both languages, values, user functions, and histories of calls", "why_tests_cant": "spans source text, configuration, file system, two generated languages and all interleavings of calls", "anchors": ["src/main.rs", "src/rust_generator.rs::generate", "src/dart_generator.rs::generate", "src/rust/rpc.rs", "src/dart/rpc.rs"]}
{"id": "C87", "title": "The code generated for a declaration depends on that declaration only", "statement": "The types and codecs generated for a schema (Rust, Dart, Kotlin, Swift) are the texts generated for each struct and enum alone, in the order of the declarations, with nothing but blank lines in between; so adding, removing, changing or moving other declarations leaves the code of a declaration as it is. In the Rust server and the Dart client a method contributes its own registration, fields, getters and methods, which depend only on the method and its number; the rest of these sections is fixed text with the id and namespace of the schema.", "quantifier": "all accepted schemas, all struct and enum declarations and methods in them, and all pairs of schemas that share a declaration", "why_tests_cant": "golden tests fix a few schemas; that no state leaks from one declaration into the text of another must hold for every combination of declarations", "anchors": ["src/rust_generator.rs::generate_models", "src/rust_generator.rs::generate_buffers", "src/rust_generator.rs::generate_rpc", "src/dart_generator.rs::generate_models", "src/dart_generator.rs::generate_buffers", "src/dart/rpc.rs", "src/kotlin/generator.rs::generate_models", "src/swift/generator.rs::generate_models"]}
{"id": "C88", "title": "Dart constructors and variant methods build the value they are given", "statement": "The constructor of a generated Dart struct class, called with all fields by name in any order, and createV of an enum class, called with the payload of the variant V, return objects that stand for exactly that value. toV turns any object of the class, whatever it held, into one that stands for the variant V with the given payload and leaves the payloads of other variants alone. isV returns true exactly for objects that stand for the variant V, also after the object was written and read again.", "quantifier": "all accepted schemas whose names can be told apart in Dart, all structs, enums and variants in them, all payload values, all previous contents of the object, all orders of named arguments, all naming conversions", "why_tests_cant": "the tests compare generated text for a few enums and run none of it; a dropped or swapped assignment shows only for particular values", "anchors": ["src/dart_generator.rs::generate_enum_model", "src/dart_generator.rs::generate_struct_model"]}
{"id": "C89", "title": "createDefault of Dart models returns the default value", "statement": "The generated Dart factory of every struct and enum returns an object that stands for the default value of the type: numbers are zero, booleans false, lists empty, every field of a struct has the default of its own type, and an enum is its first variant with default payload, so that isV is true for the first variant only.", "quantifier": "all accepted schemas whose names can be told apart in Dart and whose types do not contain themselves, all structs and enums in them, all naming conversions, all libraries", "why_tests_cant": "ranges over all schemas with arbitrarily nested types; the tests compare generated text only", "anchors": ["src/dart_generator.rs::generate_struct_model", "src/dart_generator.rs::generate_enum_model", "src/dart_generator.rs::generate_default_const"]}
{"id": "C90", "title": "Dart objects in memory: reading makes new objects, reading in place changes one object only", "statement": "With objects that are references: writing an object, with either codec, gives the bytes of the value it stands for, even if parts of it are shared. Reading and createDefault make new objects, none shared, and change no existing object. Reading in place into an object that reaches no part twice makes that same object stand for the value read, changes only the object and what was reachable from it, and never makes two parts shared; all objects that share nothing with it keep their value.", "quantifier": "all accepted schemas of C25, all values, all memories with any other objects in them, all previous contents of the object that is read into, both codecs, all input after the value, all naming conversions, all libraries", "why_tests_cant": "aliasing needs particular graphs of objects and particular values to show; the tests compare generated text and run none of it", "anchors": ["src/dart_generator.rs::generate_buffers", "src/dart_generator.rs::generate_struct_model", "src/dart_generator.rs::generate_enum_model"]}
{"id": "C91", "title": "Dart constructors and createV, toV, isV on objects in memory keep the caller's objects", "statement": "With objects that are references: the constructor of a struct and createV make a new object that stands for the struct or variant with the values of the arguments, hold the caller's objects themselves and change no object. toV makes the same object stand for the variant with the values of the arguments, changing only the object and its payload object for that variant. The result has no shared parts if the arguments shared none (for toV: with each other or with the object). isV answers for the value the object stands for. An argument that contains the object on which toV is called is not allowed: the object would contain itself, stand for no value and could not be written.", "quantifier": "all accepted schemas whose names Dart tells apart, all structs, enums and variants, all memories, all argument objects shared or not, all orders of named arguments, all previous contents of the object, all naming conversions, all libraries", "why_tests_cant": "aliasing needs particular graphs of objects to show; the tests compare generated text and run none of it", "anchors": ["src/dart_generator.rs::generate_enum_model", "src/dart_generator.rs::generate_struct_model"]}
{"id": "C92", "title": "Number literals are numbers, whatever the source", "statement": "Digits, a point and digits, with single underscores between digits, become the decimal literal with these digits. Every decimal literal found in any source is a number with a point, and every integer literal fits in a signed 64-bit integer; the same holds for the numbers in the constants of an accepted schema at any depth. Literals have no sign and no exponent.", "quantifier": "all source texts, all digit strings with underscore groupings, constant blocks of any depth", "why_tests_cant": "the source is arbitrary text, and an underscore makes the lexer take the next character without a check; the tests use a few well-formed numbers", "anchors": ["src/lexer.rs::lex_number", "src/lexer.rs::tokenize"]}
{"id": "C93", "title": "Renaming does not change the bytes", "statement": "If a later version of a schema gives other names to types, fields and variants, turns a tuple variant into a struct variant or back, adds declarations and variants or reorders declarations and variants with explicit numbers, but keeps the types of the fields in their order and the numbers of the variants, then every old value has a counterpart in the new version with the same built-in values in the same places, both versions write the same bytes for the two, and each reads what the other wrote as its own counterpart. This holds within Rust, within Dart (except for library types with declared types as arguments, which have a library codec of their own for each argument) and, for types on which the two languages agree, between the two. Fields are told apart by their place only: if two fields of the same type trade places, their values are exchanged silently.", "quantifier": "all pairs of accepted schemas of the same shape, all renamings, all types, all values of any depth, all libraries, whatever bytes follow", "why_tests_cant": "the generator is run on one schema at a time in the tests and the generated code is never run; compatibility is a relation between two generated programs over all values", "anchors": ["src/rust/struct_buffers.rs", "src/rust/enum_buffers.rs", "src/dart/struct_into_buffers.rs", "src/dart/enum_into_buffers.rs", "src/parser.rs"]}
{"id": "C94", "title": "Old clients keep working with a server whose methods and types are renamed", "statement": "If a later version of a schema renames methods, arguments, types, fields and variants (as in C93), moves declarations of types between methods and appends methods, but keeps the order, kinds and argument and result types of the methods, then a client generated from the old version works with a server generated from the new one: every renamed method is registered at the address that the client uses for its old name; a synchronous call reaches the function with the new name, once, with the same values up to names, and its result, up to names, is returned to the caller; a request for an asynchronous method makes the server call the function with the new name once, and the answer is the one of the old version with the same method id. A read method whose result type is not built in (code for others is rejected) calls the function with the new name and sends the answer of the old version. Names tell nothing apart: when two methods with the same types trade places, a call of an old client silently runs the other one.", "quantifier": "all pairs of accepted interfaces that differ in names and appended methods, all renamings, all methods, arguments, results, buffer contents and orders of handlers", "why_tests_cant": "compatibility is a relation between two generated programs in two languages; the tests generate text for one schema at a time", "anchors": ["src/rust/rpc.rs", "src/dart/rpc.rs", "src/parser.rs::parse_fn"]}
{"id": "C95", "title": "Fields and arguments appended at the end", "statement": "If one version of a schema has further fields at the end of a struct or of a variant of an enum, then the generated code of the version without them (Rust or Dart) reads what the version with them wrote as the value without these fields, and stops before their bytes; conversely the version with them takes the further fields from whatever bytes follow what the other version wrote. There are no default values for them: given only what the version without them wrote, the Rust code of the version with them panics and the Dart code throws. This holds only for the last value of a message: a longer struct inside another value makes old code read its further fields as the values that come next, without an error. A server whose method lacks the last arguments serves the calls of a client that sends them, synchronous and asynchronous, with the arguments it knows. A client that does not send the last arguments of a method makes the function run with values taken from whatever is left in the buffer behind the request, for example the argument of an earlier call of another client, and the caller is not told: appending arguments is not compatible with old clients.", "quantifier": "all pairs of accepted schemas that agree up to names (as in C93) on the types of the common fields and arguments, all structs, variants and methods with further fields or arguments at the end, all values, all following bytes, buffer contents and orders of handlers", "why_tests_cant": "compatibility is a relation between two generated programs in two languages; the tests generate text for one schema at a time and run none of it", "anchors": ["src/rust/struct_buffers.rs", "src/dart/struct_into_buffers.rs", "src/rust/rpc.rs", "src/dart/rpc.rs"]}
{"id": "C96", "title": "Methods are told apart by their place only", "statement": "A client and a server generated from two different schemas agree on a method by its place among the methods and by nothing else. If the methods at the same place are of the same kind and have the same types, a call of the client's method, synchronous or asynchronous, runs the server's method, once, with the values that were meant for the other, and returns its result, whatever the methods are called and whatever the other methods are. Inserting a method moves every later one to the place that the next one had, so calls of old clients reach the method before the one they name. If the server has no method at that place, no function is called and the client is not told: a synchronous call without a result returns as usual, and one with a result returns the answer to an earlier call if that is still in the buffer.", "quantifier": "all pairs of accepted schemas, all methods at the same place, all inserted and removed methods, all arguments, results, buffer contents and orders of handlers", "why_tests_cant": "the mistake is a relation between two generated programs in two languages; the tests generate text for one schema at a time and run none of it", "anchors": ["src/rust/rpc.rs", "src/dart/rpc.rs", "src/parser.rs"]}
{"id": "C97", "title": "Two client objects on the same buffers", "statement": "Results of asynchronous calls reach their own caller only while there is one client object. Every client object counts its calls from 0, so the first calls of two client objects created on the same buffers have the same id, and one answer with that id, whichever call it was computed for, completes the calls of both, with the same result. Likewise, if a client object is created while the buffer of a method still holds the answer to the first call of an earlier one, its first call of that method is completed with the old result, before the server has seen the request.", "quantifier": "all accepted schemas with asynchronous methods, all such methods, all pairs of arguments, all results, buffer contents and event loops", "why_tests_cant": "it is about two instances of generated code that share buffers; the tests compare generated text and create no client", "anchors": ["src/dart/rpc.rs"]}
{"id": "C98", "title": "Running the generator again repairs and repeats", "statement": "If the program is run on a configuration and stopped at any moment (after success, after an error, or killed in the middle of a write) and then run again, the second run can succeed exactly when one undisturbed run can, and then all files are as after that run; in particular running it twice leaves the same files as running it once. Whatever was where the generated files go (files of an earlier version of the schema, or nothing) has no effect on the result.  All this needs that no generated file is the configuration or one of its schemas: if the output of a generation is its own schema, a crash can leave that schema empty. If the output is itself a schema that is read, the schema is lost: a generated Rust file, or Dart file with serialization code, is never accepted as a schema, so no later generation from it succeeds.", "quantifier": "all configurations whose outputs are not read again, all file systems, all crash points, failures and partial reads and writes", "why_tests_cant": "quantifies over all crash points and histories of runs; the tests do not run the program", "anchors": ["src/main.rs::main", "src/main.rs::generate"]}
{"id": "C99", "title": "A configuration produces exactly the files of its entries, in any order", "statement": "If no generated file is the configuration or one of its schemas, a run on a configuration can succeed exactly when every entry can be generated from the files as they are at the start. After success each output file holds the text generated for the last entry that names it, and every other file is as before. Hence two configurations with the same entries in different orders can succeed on the same file systems and leave the same files, provided that no two entries name the same output; with a common output the order decides.", "quantifier": "all configurations whose outputs are not read again, all file systems, all histories of partial, interrupted and failing system calls", "why_tests_cant": "quantifies over all configurations, file systems and schedules of system calls; the tests do not run the program", "anchors": ["src/main.rs::main", "src/main.rs::generate"]}
