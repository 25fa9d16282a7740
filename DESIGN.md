# Formal model of tech-paws-buffers in Lean 4

The program under study is a code generator: it reads a schema (`.tpb`), tokenizes and parses
it, and prints Rust, Dart, Kotlin or Swift source text.  The generated text is itself a program
(serializers and RPC glue), so there are two layers to verify: the generator, and what the
generated code does.

## Layout

| Directory (under `lean/Verif`) | Contents |
|---|---|
| `Model/` | executable model of `/repo/src`, function by function, each definition citing file and lines |
| `Spec/` | small independent specifications: token spelling, schema grammar, wire format, RPC messages, readers for generated constants, what a model declares, versions of a schema, ... |
| `Sem/` | syntax trees for the generated code, their text (`render`), the trees for a schema (`gen..`), and evaluators |
| `Proofs/` | auxiliary lemmas |
| `Props/` | the property theorems, one file per group, with non-vacuity examples next to each |
| `Tests/` | `#guard` tests of the model against the golden files in `/repo/test_resources` (tests, not proofs) |

Read in this order: a property in `properties.jsonl`, its theorems in `Props/` (named after the
property, listed in `MANIFEST.json`), the notions of `Spec/` that the statement uses, and then, as far
as the property is about generated code, the trees and evaluators of `Sem/`.

## How the two layers are connected

1. `Model/` prints text, exactly as the Rust source does.
2. `Sem/` defines trees (statements, classes, handlers, ...), a function `render` from trees to lines of
   text, and a function `gen..` from schemas to trees.
3. `Proofs/*Text.lean` prove, for every schema, that the text printed by `Model/` is the rendering of the
   tree (`RustText`, `RustRpcText`, `DartText`, `DartRpcText`, `KotlinText`, `SwiftText`).
4. Theorems about generated code are stated about the evaluation of trees `P` with the hypothesis (or
   through a lemma) that `P` is the tree of the text: `Emits`, and for methods `EmitsRpc`.  This says that
   the generator printed the rendering of `P`, and that an independent reader of the language
   (`Spec/RustReader.lean`, `Spec/DartReader.lean`, `Spec/RustRpcReader.lean`, `Spec/DartRpcReader.lean`)
   finds `P` in the characters of the text whenever the names of the schema can be names in the language.

So an edit of the generator that changes the text breaks step 3 unless the tree is changed in the same
way, and then the theorem about the tree breaks.  Constants are handled differently: the generated text
is read back by an independent reader (`Spec/Reader.lean`), and the theorem compares what is read with
the schema.

## Modelling choices

* A Rust `panic!`/`unwrap` failure is the value `Except.error` of a `Panic` type.  Nothing is hidden
  behind a default value.
* Loops are structurally recursive on a fuel argument; the top-level function supplies
  `input length + 1`, and a theorem (C01, C08) shows that fuel never runs out.
* `StringReader` (byte cursor) is modelled by the list of remaining bytes viewed as Latin-1
  characters, which is what `as_bytes()[i] as char` computes (`C01_cursor` refines the cursor API).
* `u32` positions are natural numbers reduced mod 2^32 where the code casts (`as u32`); counters
  (`+= 1`) are not wrapped: a schema with 2^32 declarations does not fit in memory.
* `f64` literals are kept as their decimal text.
* Evaluators of generated code run with a stack bound and report `fuel` separately from failures of the
  program; theorems say "for every large enough bound".
* Values are trees without sharing.  Dart objects that share parts are in `Sem/DartHeap.lean` and `Sem/DartHeapMethods.lean` (C90, C91) only; there
  every evaluation of a constructor makes a new object, nothing is freed, and an in-place read of a list keeps the
  list and puts new objects into it.  The generated code never compares objects by identity.

## External code: parameters and what is assumed of them

| Parameter | Stands for | Assumed |
|---|---|---|
| `Ext.camel`, `Ext.pascal` | `to_case` of the crate convert_case | nothing in general; theorems about names state what they need |
| `Ext.fmtF64`, `ExtF.whole` | `parse::<f64>` followed by printing; `floor() == value` | C40 assumes that printing keeps the value (hypothesis `hfmt` of the theorem); C17 is stated about them |
| `Lib.yaml`, `Lib.parent` | `serde_yaml`, `Path::parent` | nothing |
| `Wire`, `Rust.Runtime` | the Rust runtime library's byte formats and readers | `Wire.Lawful`: every value of a built-in type has an encoding, a variant number takes four bytes, a `Vec` of length `n` holds `n` values. `Rust.Runtime.Lawful`: readers undo writers |
| `Dart.Runtime` | the Dart runtime library: `writeInt32`, `IntIntoBuffers`, list codecs, factories | `Dart.Runtime.Lawful`: representable values can be written, readers undo writers whatever the object held before, skipping passes over the bytes of one value, default objects exist.  For C89 also `EmptyLists`: the default list is empty.  Floating point values are compared by bit pattern.  Lists are written and skipped element by element and an in-place read of a list makes a new list.  The two library codecs of an external type write the same bytes (C27) |
| `Agree W D` | both libraries together | same bytes for signed numbers, unsigned numbers have the bytes of the signed number with the same bits, same list header and external values (only C29, C30 and the theorems about both sides) |
| `SameStatus` | the status byte of messages | 255 on the Rust side is `hasData` on the Dart side |
| `BufLib` | writing a buffer of the RPC memory | afterwards the buffer begins with the bytes written (`BufLib.Lawful`); what follows them is arbitrary.  One read or write of a buffer is atomic.  Each method has its own two buffers |
| scheduler of the Dart client | `write`, `syncWrite`, `syncRead`, `read`, `loopSyncGroup` | writes happen before the call returns; a read task runs its closure on the whole buffer whenever the runtime decides to; `loopSyncGroup` runs the handlers of the synchronous methods one after the other |
| `rotateMethodId` | next method id | `FreshIds`: the ids of the calls considered are distinct 64-bit integers (only C34_calls_completed) |
| user functions | the functions that handlers call | arbitrary functions of arguments and a state; awaited functions may return at any later moment |

`Sem/LittleEndian.lean` and `Sem/LittleEndianDart.lean` define a concrete little-endian library for each
side and prove all of these laws for them, so that the hypotheses can be met; the examples use them.

## What is modelled

| Source | Model | Not modelled |
|---|---|---|
| `src/lexer.rs` | `Model/Lexer.lean`, complete | |
| `src/parser.rs`, `src/ast.rs` | `Model/Parser.lean`, `Model/Ast.lean`, complete | |
| `src/writer.rs` | `Model/Writer.lean` | |
| `src/rust_generator.rs`, `src/rust/*` | `Model/RustGen.lean`, complete text; semantics of codecs, default values, RPC handlers and registration, constants | what rustc accepts is modelled for types, default values, codecs (C59), the RPC section (C62) and constants (C63), without lifetimes, borrows and `Send` |
| `src/dart_generator.rs`, `src/dart/*` | `Model/DartGen.lean`, complete text; semantics of codecs, model classes, RPC client, constants | what the Dart compiler accepts is modelled for classes, codecs (C60), the RPC client (C64) and constants (C63), without flow analysis and lints |
| `src/kotlin/*`, `src/swift/*` | `Model/KotlinGen.lean`, `Model/SwiftGen.lean`, complete text; constants and models, read back by `Spec/MobileConsts.lean`, `Spec/KotlinReader.lean` and `Spec/SwiftReader.lean` | evaluation of Kotlin and Swift code other than `createDefault` (`Sem/MobileEval.lean`) and constants (`Spec/MobileConsts.lean`); typing rules are in `Spec/MobileTyping.lean`; main.rs does not call these generators |
| `src/main.rs` | `Model/Main.lean`: a process stepped by the answers of the operating system | clap, logs, links and different spellings of one path, other processes; `File::create` is atomic; output `-` is standard output, and failures of closing it are ignored |

In the RPC semantics, statements are interleaved one at a time: a history is any sequence of client
calls, polls of handlers, steps of spawned futures, completions of awaited functions, and runs of client
tasks.  One handler runs at a time per runtime (they borrow the runtime mutably); futures interleave
freely.

## Properties

For each property: what is modelled, and how it is proved.  The status is that of `MANIFEST.json`.

* **C01** Tokenizing always finishes and yields an EOF-terminated stream (proved). Lexer. Induction on the remaining text; every scanner shortens it. The cursor API refines lists.
* **C02** Layout between tokens is insignificant (proved). Independent spelling of tokens and of separators (`Spec/Spelling`); induction on the token list.
* **C03** Identifiers are read whole and keywords are exact (proved). Spelling of words; scanner invariant for identifiers; keyword table.
* **C04** String literals keep their contents (partial). Bytes of the contents are followed through the scanner; iff for exactness; witness é. False as stated: non-ASCII contents are read byte by byte. Proved for ASCII, with an exact iff and a refutation of the full statement.
* **C05** Integer literals denote their exact value or are rejected (proved). Positional value of digits computed independently; overflow is an error.
* **C06** Block comments end at the first closing mark (partial). Exact characterisation of the bodies that the scanner closes; witnesses. False as stated (e.g. a comment ending in **/ is not closed). Proved for an exact class of bodies.
* **C07** Line comments hide exactly the rest of their line (proved). Induction on the rest of the line.
* **C08** Parsing always finishes (proved). Fuel sufficiency for every parser function, for every token vector.
* **C09** Every well-formed schema is accepted and read back unchanged (proved). Grammar as an inductive relation (`Spec/Grammar`); completeness by induction on derivations; every well-formed schema has a derivation.
* **C10** Schema text round-trip (proved). Printer of schemas composed with C02 and C09.
* **C11** Only schemas of the grammar are accepted (partial). Soundness with respect to the grammar plus two lenient productions; balance of brackets by induction; witnesses. False as stated: two lenient productions are accepted. Exact description of what is accepted, and the full claim for balanced brackets.
* **C12** Appending declarations never changes earlier ones (proved). Consequence of compositionality of derivations.
* **C13** RPC method addresses are consecutive and unique (proved). Invariant of the declaration loop.
* **C14** Field and variant numbers are what the schema says (partial). Inversion of derivations; reduction modulo 2^32 is exact iff below 2^32. False for written numbers from 2^32 on (they are reduced modulo 2^32); proved for all others.
* **C15** Accepted enums always have a first variant (proved). Inversion of derivations.
* **C16** Built-in type names mean exactly their width and sign (proved). Table of built-in types; structural induction on types.
* **C17** Generators never fail on an accepted schema's types (proved). Success of each generator as an iff over the schema. Exact conditions under which each generator succeeds; none of them mentions the size of a type.
* **C18** Directives are found where they were written (proved). `List.find?`/`filterMap` as specification.
* **C19** Rust struct serialization round-trips (proved). Wire relation `Enc` (`Spec/Wire`), evaluator of emitted Rust; mutual induction.
* **C20** Rust enum serialization round-trips (partial). As C19; witnesses for duplicate numbers and `bytes_writer`. False as stated: two variants may have the same number, and a variant field may be called bytes_writer. Proved for all other schemas.
* **C21** Rust skip passes over exactly the requested number of values (proved). Skip evaluator against `Enc`, any count.
* **C22** Wire layout is the documented one (proved). Writer evaluator produces `Enc`; inversion for structs, enums, lists. Layout written by the emitted Rust code; the Dart side is in C25/C29.
* **C23** Unknown variant numbers are rejected (proved). Case analysis of the emitted match on any tag.
* **C24** Encodings are self-delimiting (proved). `Enc` is deterministic in a prefix.
* **C25** Dart serialization round-trips (partial). Objects represent values (`DRep`, `Spec/Dart`); evaluator of emitted Dart classes; witnesses. False as stated: two variants may have the same number, a field may be called reader, and values of an enum that contains itself are never read. Proved for all schemas whose Dart names can be told apart, with distinct 31-bit variant numbers: every object that exists survives (C25_objects_partial), and every value of a type with a default object.
* **C26** Dart in-place reading fully overwrites the model (partial). In-place evaluator over arbitrary previous objects. Proved for the same schemas as C25; the previous contents are arbitrary.
* **C27** The two Dart codecs agree byte for byte (proved). Induction on the stack bound comparing the two writers. For schemas whose Dart names can be told apart (others are rejected by the Dart compiler). That the two library codecs of an external type write the same bytes is assumed.
* **C28** Dart skip passes over exactly the requested number of values (partial). Evaluator of skip bodies; a layout with named fields first (Spec/DartSkip) describes what is passed over for every order and count; witnesses. False as stated: fields whose type is given by a name are skipped once, before all other fields. Proved where that order and count are right; for every order and count, what is passed over instead, and exactly when that is one value. Structs whose fields all have types given by names ignore the count (C28_count_ignored).
* **C29** Rust and Dart interoperate (partial). `Sees` relates Rust and Dart values; composition of C22 and C25; refutations for every lawful pair of libraries. False for char, lists of built-in types, variant numbers from 2^31 on and large unsigned integers. Proved for all other types, with the exact change of unsigned integers.
* **C30** Unsigned integers survive the trip to Dart (partial). Arithmetic of two's complement on top of C29. False for the upper half of the range (proved), true for the lower half (proved).
* **C31** Both sides agree on method addresses and groups (proved). Registration and client trees list the same addresses. Scope, addresses, groups and buffers of both emitted sides.
* **C32** A synchronous call returns the function's result (proved). Run of one handler; run of the client method around it. C32_sync_call: the client buffer then begins with exactly the encoded result, all types. C32_client_call_partial: the whole call through the emitted Dart client, only for methods whose types both sides encode alike (see C29).
* **C33** A request is executed exactly once (proved). Invariant over all histories: answered requests = calls of the function.
* **C34** Asynchronous results reach their own caller (proved). Joint invariant of server and client over all histories (`Proofs/RpcJoint`). C34_client_answer: emitted Dart client, all types, any client state. C34_answers_match_requests: emitted Rust server, all types, any history. C34_calls_completed: both together, any history, for methods whose types both sides encode alike (see C29).
* **C35** No asynchronous response is lost (partial). Delivery from the state; invariant that an overwritten answer is lost, for every schema; witness history. False: an answer is overwritten by the next one if the client has not polled in between (witness, and for every schema: a call whose answer is not in the buffer when the server is done is never completed). Proved: an answer that is in the buffer when the client polls completes its call.
* **C36** At most one background read runs at a time (proved). Invariant over all histories: busy flag counts running futures.
* **C37** A background read can always run again (partial). Same invariant; witness history for functions that yield nothing. False if a call yields nothing: the method stays busy forever (proved). Proved for all other histories.
* **C38** Section switches remove exactly their section (proved). Text equations between runs with different switches.
* **C39** Generated files end in a single newline (proved). The trimming loop.
* **C40** Constants are emitted with their value (partial). Independent reader of the generated text (`Spec/Reader`, `Spec/Consts`); induction over constant trees of any depth. False for Rust: a float constant with a whole value is printed as an integer literal (proved). Proved for the rest by reading the generated text back with an independent reader: same constants, order, modules, types, values, any depth, also in the whole file with any sections switched off. Missing: whole floats (Rust), strings of C41, literals with a sign or an exponent (C92), Dart name clashes; float printing is external.
* **C41** String constants are emitted intact (partial). Reader of string literals; iff. False: backslashes (both), dollar signs and line breaks (Dart) and carriage returns are not escaped (proved). The theorems say exactly which strings are intact.
* **C42** Distinct constant blocks get distinct Dart classes (partial). Word decomposition of concatenated names; witness. False: a{bC} and aB{c} give the same class name (proved). The exact condition is proved, and that it is met by names that become capitalised words.
* **C43** Kotlin and Swift types keep width and sign (partial). Meaning of target types (`Spec/Mobile`) compared with that of the schema; induction on types. False for char in Swift, which is emitted as char (proved). Proved for everything else.
* **C44** Kotlin and Swift definitions match their uses (partial). Declared and used names collected from the trees (`Spec/MobileModels`); exactly when they agree, on the text read back (`Props/MobileSpelling`). Proved when the names are already in the case that the generators give them; refuted otherwise (struct my_type, variant field my_field). Exact for accepted schemas whose names satisfy the readability conditions of C84 and C85: read back, declared and used names agree if and only if the names are in that case and no struct or enum is called like an address type (Swift: provided that Pascal case does not turn such a name into UInt64).
* **C45** Indentation is always balanced (proved). Token writer keeps the indentation; induction on nested tokens.
* **C46** Default values are the first variant and per-field zeros (partial). Evaluator of `Default` implementations; iff. False for char fields (the literal 0 is emitted, which is not a char). Proved exactly (iff) for all other schemas whose names do not clash.
* **C47** A rejected schema never touches the output file (proved). Invariant of every reachable state of the process. Every moment of every run of the modelled program, whatever the system answers to each call.
* **C48** Batch generation is in order and stops at the first error (proved). Refinement of the batch loop to its jobs, at any moment.
* **C49** A crash while writing leaves old or new output (partial). Invariant; witness for every prefix. False: the output is truncated before it is written, so a crash can leave any prefix of the new contents (proved). Proved: never anything but the old contents or such a prefix, and no other file changes.
* **C50** Generated RPC helper names do not clash (partial). String arithmetic on prefixes and suffixes; witnesses. Proved for Rust. False for Dart: get_user and getUser get the same names, and so do helpers of connect_x and x_completers (proved). The exact condition under which the client class declares no name twice is proved.
* **C51** Read methods deliver the function's value (partial). Run of read handlers; witness. False for built-in return types: the emitted code passes a reference where a value is taken. Proved for all other return types.
* **C52** No request is lost (partial). Invariant over histories in which requests are only written into empty buffers; refutation for every schema. False: a request written while the server buffer still holds an unread one replaces it for good (proved for every schema), and the emitted client of every schema does that when a method is called twice in a row (C52_calls_at_once). Proved when requests are only written into a buffer without a message.
* **C53** Kotlin and Swift models declare what the schema declares (partial). Declarations read off the trees compared with the schema. What is declared is proved for all accepted schemas.  Refuted: Kotlin variants A() are emitted as data classes without parameters, which are not valid; Swift's char (C43_swift_char).
* **C54** Kotlin and Swift default values (partial). Default expressions related to the types of fields; witnesses. Proved for schemas without char and address types in defaults; refuted for those, and in Swift for a first variant A().
* **C55** Adding to a schema keeps the bytes of existing values (proved). `Enc` is monotone in the schema under `Extends` (`Spec/Evolution`). Names of new types must not already be used for types of the runtime library; Dart: for values that Dart can represent.
* **C56** Old clients keep working with a server that has more methods (proved). `AddsMethods`; C33/C34 theorems transported with C55. Results that are values of the old version. The client side of asynchronous answers is C34_client_answer, which reads exactly the answers of C56_async_call.
* **C57** Numbers of struct fields determine the layout (partial). Sorted and unsorted field lists; witness that is misread silently; every generator is shown to give the same text when only field numbers change (`Spec/FieldNumbers`). False: the numbers of struct fields are ignored, fields are written in the order of declaration (refuted with a witness that misreads silently). In every language, schemas that differ only in such numbers get identical files (C57_numbers_ignored). Proved when both orders agree.
* **C58** The streams of read methods (partial). Invariant that the client buffer holds a yielded value at or after the last one delivered; stuttering relation `Stutter` (`Spec/RpcDart`). Synchronous read methods: the same invariant, with a user whose functions keep a record (`Spec/Recorded`). Proved: only yielded values, in the order of the yields, for every interleaving, for asynchronous and for synchronous read methods (for the latter the returned values are kept in a record, which changes nothing else: C58_record). Refuted: a value is delivered again each time the client reads, since the buffer is not marked as read, and is lost when the next one overwrites it (for every schema and history: once the buffer holds the value with number j, no earlier one is delivered any more).
* **C59** Generated Rust types and codecs type-check (partial). Typing rules for the emitted trees (`Spec/RustTyping`): name resolution, types of expressions, complete records and matches, finite sizes; equivalence with a condition on the schema, proved declaration by declaration. C59_rust_typed_partial: the emitted declarations and impl blocks obey the typing rules (Spec/RustTyping.lean) if and only if the schema is typable, for all accepted schemas and all imported crates. Missing, because false: char fields, keywords as names, variant fields called bytes_writer or like an empty struct, empty structs called like a variable of the emitted code, and types that contain themselves are accepted by the parser and emitted as code that does not compile. Borrow checking and trait bounds of imported types are not covered; for the RPC section see C62, for constants C63.
* **C60** Generated Dart models and codecs are accepted by the Dart compiler (partial). Rules for the emitted trees (`Spec/DartTyping`): scopes, clashes of names, types of expressions, initialisation; sufficient condition on the schema, proved class by class; families of schemas that violate the rules. C60_dart_typed_partial: for all accepted schemas that are typable (a condition on names and types of the schema, Spec/DartTyping.lean), all libraries and all conversions of names, the emitted models and codecs obey the rules. Missing, because false: the other theorems show families of accepted schemas whose Dart code is rejected (classes of the same name, reserved words, members of Object, fields called reader or like a type, parameters called value or model, variants called String or Index, variants written A()). The RPC section and null safety beyond initialisation are not covered.
* **C61** From schema files to exchanged values (partial). Composition: source text to tree (C10), tree to text (C38), text to file (C47, C48), file to program and its meaning (C19, C29, C34, C59); nothing but file contents in the statement. Composition of C02, C10, C17, C19, C29, C34, C38, C47, C48, C59: statements about the contents of files before and after a run. C61_can_succeed: exact condition. C61_rpc_programs carries every theorem about emitted RPC programs over to the files. Partial because the exchange needs the hypotheses of C29 (names that can be told apart, portable types), without which it is false.
* **C62** Generated Rust RPC code type-checks (partial). Typing rules for handlers, argument structs and registration (`Spec/RustRpcTyping`): scopes of variables, what `async move` captures, types of calls and results; equivalence with a condition on the schema, proved per kind of method; families of schemas that violate it. C62_rust_rpc_typed_partial: for all accepted schemas with methods, all crates and all user functions of the declared types, the emitted file obeys the typing rules (Spec/RustRpcTyping.lean) if and only if the schema meets RpcTypable. Missing, because false: the other theorems show families of accepted schemas that never compile (read methods of built-in types; methods called like a variable or a function of the emitted code; repeated names; keywords; an argument __method_id__; empty structs called like a variable). Send bounds of futures and borrows are not covered.
* **C63** Generated constants type-check (partial). Readers of the declared constants, modules and classes; rules of both compilers on what was read; equivalence with a condition on the schema; families of constants that violate it. C63_rust_partial and C63_dart_partial: for all legal schemas, the declared constants, modules and classes read from the emitted text obey the rules of the compiler (Spec/ConstTyping.lean) if and only if the schema meets RustConstSchema or DartConstSchema; strings are those that are emitted intact (C41). Missing, because false (C63_refuted): String and char constants never compile in Rust, nor do whole floating-point constants, literals out of range, literals of another kind, repeated names; a Dart constant may not be called like a type of its block (INT). Clashes with names of other sections of the file are not covered.
* **C64** Generated Dart RPC client type-checks (partial). Typing rules for the client class (`Spec/DartRpcTyping`): scopes of members, parameters, variables and closures, hidden library names, overriding of members of `Object`; equivalence with a condition on the schema, proved per kind of method; families of schemas that violate it. C64_dart_rpc_typed_partial: for all accepted schemas with methods, namespace and id, and all libraries for which the types of the schema are usable, the emitted file with the client class obeys the typing rules (Spec/DartRpcTyping.lean) if and only if the schema meets DartRpcTypable. Missing, because false: the other theorems show families of accepted schemas whose client is rejected with every library (methods called like a reserved word, a member of Object, the client class, disconnect or a library name in use; methods or arguments with the same Dart name; arguments called writer, completer, result or methodId; ids with quotes; a struct called like the client class). Definite assignment of late members is not covered.
* **C65** A call sends its own arguments (partial). Run of the emitted methods (`Sem/DartRpcEval`), where a local variable hides a parameter; the bytes sent are compared with the encoding of the arguments; two calls that differ in a hidden argument are shown to be equal. C65_sends_arguments_partial: in every state, a call writes exactly one message, to the server buffer of its method, with the marker, the id (asynchronous methods) and the bytes of its arguments in order. Missing, because false: an argument of an asynchronous method called method_id is hidden by the id of the request. If it is an integer the compiler accepts this (example beside the theorem), and C65_method_id shows that its value is ignored: calls that differ only in it have the same effect in every state.
* **C66** After disconnect nothing arrives (proved). Run of the emitted body of `disconnect` (`Sem/DartDisconnect`) inside histories of client and server; invariant that all read tasks are off. For all histories (Sem/DartDisconnect.lean). The scheduler's part (a disconnected task is not run again) belongs to the runtime library and is an assumption of the model.
* **C67** Reading arbitrary bytes is safe in Rust (proved). Induction principle for successful reads of the emitted code (`Proofs/Untrusted`), used with types, with encodings and with lengths; a measure on bytes and on the nesting of structs bounds the stack. Laws of the library about bytes of unknown origin are hypotheses (Spec/Untrusted.lean) and are met by a concrete library. C67_ends excludes structs that contain themselves directly, which rustc rejects (C59). Memory needed by a container before its elements are read belongs to the library.
* **C68** Arbitrary requests never reach a function with wrong arguments (proved). Invariant on the code and the variables of all handlers and futures, for all histories; what has been read as a request is typed, or encoded, by C67. For all histories from any initial buffers, with arbitrary bytes. Hypotheses on the library as in C67; no type of the schema may refer to the struct that holds the arguments of a method.
* **C69** A server that compiles does not get stuck (proved). Progress and preservation: what is known of the variables at each statement is computed from the emitted code, and kept by every step of every history; the codecs can write typed values (C02). For all histories from any initial buffers. C69_compiled_progress is for the schemas whose code type-checks (C62); C69_builtin_read_stuck shows that the condition is needed. With enough stack: how deep values may be nested depends on the machine. Hypotheses on the library as in C67; no type of the schema may refer to the struct that holds the arguments of a method.
* **C70** Reading arbitrary bytes with the generated Dart code is safe (proved). Induction principle for successful reads of the emitted Dart code, for new and for existing objects together (`Proofs/UntrustedDart`), used with types and with encodings; a measure on bytes and on the height of types bounds the stack. Laws of the library about bytes of unknown origin are hypotheses (Spec/UntrustedDart.lean) and are met by a concrete library. What an existing object holds after an exception is not described. Memory needed by a list before its elements are read belongs to the library.
* **C71** Rust and Dart accept the same messages (partial). From bytes to an encoding on one side (C67, C70), from there to the other side by the agreement of the formats (C29), and back to a read. Missing: the types for which the two sides have different formats (char, lists of built-in types and of lists, other generic types, variant numbers beyond 31 bits). C71_integer_lists_differ gives bytes that one side accepts and the other refuses.
* **C72** Dart clients whose buffers hold arbitrary bytes (proved). Invariant over histories (who registered which completer, who was answered by what), from a case analysis of every reader and every method; progress by the reading lemmas of C70. The server is replaced by arbitrary writes to the buffers. The library is a parameter: C72_typed_results assumes that it reads values of the requested types, C72_answered that it accepts only what it writes. A history ends at an uncaught exception.
* **C73** One call at a time: nothing is lost (proved). Invariant: the phase of the one outstanding request (posted, read, taken, executing, answered) with the list of finished ones; it determines the executions, the buffers and the open call.  Possibility of completion: each phase has a next action, and rank of the phase and work left decrease lexicographically. The positive counterpart of C35 and C52. The assumptions of C34; in addition nobody but the emitted code writes to the buffers of the method.
* **C74** Kotlin and Swift constants keep their value (partial). A reader of the generated files, written from the grammars of Kotlin and Swift (`Spec/MobileConsts`: lines, literals with suffixes, string escapes and templates, nested objects), returns the constants of the schema: induction over blocks with the writer of indented lines; exact condition for strings; refuting strings. Proved for all schemas that can be written down with numbers of digits (without the signs and exponents of C92) and whose strings have no backslash, line break or (Kotlin) template; for strings the exact condition is proved, and false instances are shown. Missing: nothing for those strings; for the others the full statement is false. Assumed: case changes give identifiers and numbers are printed as decimals (Rust's formatting of f64, parameter).
* **C75** Kotlin and Swift constants type-check (partial). Typing rules for constants on what the reader returns: names, ranges, suffixes, hidden types; equivalence with a condition on the schema; families of constants that violate it. Exact: accepted if and only if the schema meets a written condition. The unrestricted claim is false: 32-bit floating-point constants in Swift, out-of-range integers, blocks that hide a type. The compilers' rules are those written in Spec/MobileConsts; the strings are those of C74.
* **C76** Kotlin and Swift models type-check (partial). Typing rules on the trees of the models, with the libraries as parameters; equivalence with a condition on the schema; families of schemas that violate it. Typed (names, types, arguments, defaults, sizes) holds of the emitted declarations exactly for the schemas of Fit, for all libraries. The property fails for other accepted schemas: C76_kotlin_misfit and C76_swift_misfit list families (names not in Pascal case, char and address fields, variants A(), hidden types, types that contain themselves). Left out: schemas excluded by NoAccidents.
* **C77** createDefault of Kotlin and Swift models returns the default value (partial). Evaluator with a stack depth for createDefault on the trees of the models; both languages refine one function that computes default values field by field; soundness, completeness and termination against inductive specifications. Evaluation of createDefault on the emitted declarations, with a depth of the stack: whatever is returned is the default value, nothing is undefined, and Swift always returns. Kotlin returns exactly for types with a finite default value; C77_kotlin_endless: a struct that contains itself compiles and createDefault never returns. Left out: schemas excluded by NoAccidents.
* **C78** The generated Rust text itself means the specified types and codecs (partial). A lexer and recursive-descent reader for the fragment of Rust in which the sections are written, specified without the generator; the printed form of every tree is read back as that tree (lexing lemmas for lines, one lemma per production), and the generated text is such a printed form; the codec theorems are restated for whatever is read. An independent reader of the Rust fragment (Spec/RustReader.lean) is applied to the generated characters; the program it returns is unique and has the properties C19-C22, C46, C59. This removes the printed trees from what has to be trusted. Missing: schemas with a Rust keyword as a name (the text is no Rust then, C59_keyword).
* **C79** Names in an accepted schema are identifiers (proved). Induction over the grammar relation (names are identifier tokens) and over the lexer loop (identifier tokens are legal names). For every source text, bytes beyond ASCII included.
* **C80** Rust types and codecs depend exactly on the declared types (partial). The trees of a schema are a function of a view of its types; an inverse function on trees; the text determines the trees by C78. Same types give the same text for all accepted schemas. The converse goes through the reader of C78, so it leaves out schemas with a Rust keyword as a name.
* **C81** The generated Dart text itself means the specified classes and codecs (partial). As C78: a recursive-descent reader for the fragment of Dart in which models and codecs are written, on shared combinators; each printed class is a block of line pieces whose tokens are known, and one lemma per production reads them back; the codec theorems are restated for whatever is read, together with the exchange between the program read from the Rust text and the one read from the Dart text. An independent reader of the Dart fragment (Spec/DartReader.lean) is applied to the generated characters; the program it returns is unique and has the properties C23, C25-C29, C60. Missing: schemas with a reserved word of Dart as a name or a variant with empty parentheses (rejected by the Dart compiler, C60_field_name, C60_empty_payload); skipping several values or with other orders of fields (false, C28).
* **C82** The generated Rust text for methods itself means the specified registration and handlers (partial). As C78, for the section of methods: the reader yields the statements without empty lines; passing an empty line is a step without effect, so a run of a handler without empty lines equals the run with them, and every history without them is one with more steps (a simulation); the theorems about handlers and histories then hold for whatever section is read. An independent reader of the Rust fragment for methods (Spec/RustRpcReader.lean) is applied to the generated characters; the section it returns is unique, and its registration and handlers have the properties C31-C34, C36 and C51 (the reader gets the declared result types, which the text of a handler does not show). Missing: schemas with a keyword of Rust as a name (their text is no Rust, C59_keyword), an id with a quote, backslash or carriage return, and read methods with a built-in result (C51_builtin_result_is_rejected).
* **C83** The generated Dart client and the generated Rust server, read as text, work together as specified (partial). As C82, for the client class: the reader yields the class without empty lines; empty lines have no effect in the semantics of the client, so that a history of client and server without them is one with more steps of the server; the theorems about histories are proved for these sub-histories and hold for whatever four programs are read. An independent reader of the Dart client class (Spec/DartRpcReader.lean) is applied to the generated characters, next to those of C78, C81 and C82; what they return is unique, and run together it has the properties C31, C32, C34, C35, C58 and C64. Missing: names that are reserved in one of the languages (their text is rejected, C59_keyword, C64_method_name), ids other than words with hyphens, arguments called methodId (C65_method_id), a result type called Future, and what is missing in C35 and C58 (C35_answer_is_lost, C58_repeated, C58_lost).
* **C84** The generated Kotlin models, read as text, declare the schema and create its defaults (partial). A reader of the Kotlin fragment by recursive descent on the words and line ends of the text (Spec/KotlinReader.lean), proved to return the tree that the text was printed from; C53, C54, C76 and C77 are then restated for whatever is read. The names that Fit (C76) asks for, with identifiers in the source, give the names that the reader asks for. An independent reader of Kotlin (Spec/KotlinReader.lean) is applied to the characters of the generated models; what it returns is unique and has the properties C53, C54, C76 and C77; C84_source_partial starts at source text. Missing: names that are reserved in Kotlin or no identifiers after the change of case, and what is missing in C53, C54, C76 and C77.
* **C85** The generated Swift models, read as text, declare the schema and create its defaults (partial). As C84 for Swift; the arguments of calls and the values of cases are on lines of their own and the comments before them are kept. An independent reader of Swift (Spec/SwiftReader.lean) is applied to the characters of the generated models; what it returns is unique and has the properties C53, C54, C76 and C77; C85_source_partial starts at source text. Missing: names that are reserved in Swift or no identifiers after the change of case, lists with several types of elements, and what is missing in C53, C54, C76 and C77.
* **C86** The generated files on disk, read as text, are programs that work together (partial). The sections of C38 in the files after a run (C47, C48, C61) are given to the readers of C78, C81, C82 and C83; the theorems about exchange and calls are restated for what is read. Composition of C61 with C78, C81, C82 and C83: from any accepted source text and configuration to the programs that the independent readers find in the characters of the output files. Missing: names that are reserved in one of the languages, ids with other characters than letters, digits and hyphens, and the schemas excluded by C29 and C83.
* **C87** The code generated for a declaration depends on that declaration only (proved). Spec/Locality.lean says when a section is the text of its declarations one by one; proved from the trees of C19, C27, C36 and C84 by induction on the list of declarations. For rpc the parts of a method are given as functions of the method chosen before the schema. For all accepted schemas. Swift under the assumption that the case conversion leaves createDefault alone. In the Dart and Kotlin models the separator between two declarations is a blank line or nothing, depending on the two kinds of declaration.
* **C88** Dart constructors and variant methods build the value they are given (partial). Sem/DartMethods.lean evaluates the constructors and the methods createV, toV and isV of the trees whose text is the generated file (Sem/DartIR.lean); Spec/DartMethods.lean says how a payload is passed. Proved by running the assignments one by one on an object with the payload of one variant singled out, and by C25 for the objects that were sent. Proved for schemas whose names can be told apart in Dart and whose enum classes are accepted by the Dart compiler. Refuted without: a field called value hides the member that toV assigns. Objects are values here; C90 and C91 are about shared objects.
* **C89** createDefault of Dart models returns the default value (partial). Spec/DartDefault.lean instantiates the default values of C46 for the schema as Dart sees it; a type is Built if it does not contain itself; by induction on this, the factory of a type that is Built returns an object that represents the default value, and by induction on the depth of calls a factory that returns belongs to a type that is Built. Proved for schemas whose names can be told apart in Dart, whose types do not contain themselves, with one type argument for Vec and payloads where a variant announces one; the library's list factory returns the empty list. C89_returns_iff says exactly which factories return. Refuted for a struct that contains itself, and for an enum whose default value exists but whose other variants contain the enum.
* **C90** Dart objects in memory: reading makes new objects, reading in place changes one object only (partial). Sem/DartHeap.lean evaluates the trees of Sem/DartIR.lean on a memory of objects; Spec/DartHeap.lean says which object a reference stands for, what can be reached from it and whether anything is reached twice. By induction on the depth of calls every run of Sem/DartEval.lean on values is simulated by one on the memory, with a frame condition: only the parts of the object change, and new parts are new objects. The emitted code is run on a memory of objects with references (Sem/DartHeap.lean). Proved for schemas whose names can be told apart in Dart, with defaults and distinct variant numbers as in C25 and C26, and libraries whose list factory returns the empty list. Refuted for reading in place into an object that refers to one part twice: the second field overwrites the first.
* **C91** Dart constructors and createV, toV, isV on objects in memory keep the caller's objects (partial). Sem/DartHeapMethods.lean evaluates the constructors and methods of C88 on the memory of C90. One lemma about the common body of createV and toV: the assignments fill the payload object, nothing else changes, and the value is that of the run of Sem/DartMethods.lean. The refutation is a concrete memory; that its object stands for no value is by induction on the relation of Spec/DartHeap.lean, that it is never written by induction on the depth of calls. The emitted methods are run on a memory of objects with references (Sem/DartHeapMethods.lean). Proved for schemas whose names can be told apart in Dart and whose enum classes are accepted by the Dart compiler, and for toV on objects without shared parts whose arguments do not contain the object or its payload object. Refuted without the latter: leaf.toNode([leaf]) makes an object that stands for no value and cannot be written. The caller's objects are kept, not copied: reading in place into the new object changes them.
* **C92** Number literals are numbers, whatever the source (partial). Invariant of the loop of the lexer: a text collected as decimal contains a point; the standard grammar of numbers is split at it. One lemma carries a property of names, strings and numbers to all tokens, another from tokens to constants by induction over the grammar. Two refutations by sources. Shape of decimal literals and range of integer literals are proved for every source. That literals have no sign and no exponent is false: 0x_-5 is read as -5 (C92_negative) and 1._e_5 as 1.e5 (C92_exponent), since the character after an underscore is not checked.
* **C93** Renaming does not change the bytes (proved). `Spec/Renaming` relates types, schemas and values of two schemas that differ in names. By induction over this relation both values have the same documented bytes, and every value has a counterpart; reading and writing then follow from the theorems about one schema. A pair of schemas shows what happens when fields trade places. Proved for every pair of schemas of the same shape: C93_rust for all types; C93_dart for all types but library types applied to declared types, and lists of built-in types if a declared type is called Int, Double, Bool or List (Renamable); between the languages for portable types, on which they agree (C29). C93_swapped shows that fields are told apart by place only.
* **C94** Old clients keep working with a server whose methods and types are renamed (proved). As C56, with the relation of C93 on methods: requests and answers of the old version are, byte for byte, requests and answers of the new version for the renamed values; one lemma about a synchronous call between two schemas serves both C56 and C94. Proved for every pair of interfaces that differ in names (SameInterface); methods with portable types for calls from the Dart client, as in C32. C94_swapped: names do not tell methods apart, so a call of an old client reaches the other one of two methods that traded places.
* **C95** Fields and arguments appended at the end (proved). The bytes of a struct or argument list are the bytes of its first part followed by those of the rest; the common part is carried over by the relation of C93, so the shorter version reads a prefix and the longer one reads on into whatever follows. The calls use the lemma about a call between two schemas of C94; the refutation runs two calls in a row on one buffer. Proved for every pair of schemas in which one struct or method has further fields or arguments (MoreFields, MorePayload, MoreArgs, FewerArgs); methods with portable types for calls from the Dart client, as in C32. C95_nested: no such thing for a longer value inside another one. C95_stale is a concrete refutation of compatibility for appended arguments: the missing argument is that of an earlier call.
* **C96** Methods are told apart by their place only (proved). The lemma about a call between two schemas of C94, for two methods at the same place of schemas that are not related otherwise; places are the addresses of C13. For a removed method all handlers of the server are idle, and the client reads what its buffer held before. Proved for every pair of accepted schemas; methods with portable types for calls from the Dart client, as in C32.
* **C97** Two client objects on the same buffers (proved). Two runs of the constructor and of the same method, on the same buffers; the answer is read by each client separately, by the lemma of C34 about one answer. A limit of C34, proved for every accepted schema and every asynchronous method of the Dart client.
* **C98** Running the generator again repairs and repeats (proved). Two worlds that agree on all files that are not outputs: runs from both succeed alike, and agree on one more output after each job (induction over the batch of C48). What a stopped run leaves agrees with the start by C48 and C49. Generated Rust files are no schemas: by C38 their first line is a comment and the next tokens are # and !, which no declaration begins with; Dart files with imports have the word import there. For all configurations whose outputs are not read again; C98_schema_lost and C98_overwritten show why that is needed: a schema replaced by generated code is never accepted again (C98_rust_rejected for all schemas and sections, C98_dart_rejected with serialization or RPC code; a Dart file of comments only is the empty schema, shown by an example). Paths are strings, as in C47-C49.
* **C99** A configuration produces exactly the files of its entries, in any order (proved). Induction over the batch of C48: as no output is an input, every entry is generated from the texts at the start. The last entry with an output decides by C48_written. The order theorem compares two such descriptions; the case of a common output is refuted with a concrete pair of configurations. For all configurations whose outputs are not read again (C98 shows why that is needed). C99_same_output: with a common output the order matters. Paths are strings, as in C47-C49.

No property is declared inexpressible.  Out of scope: lints and flow analysis of
the generated code (for what compilers accept see C59, C60, C62 to C64, C75 and C76), and the behaviour of the external runtime libraries beyond the stated laws.

## Findings

What the proofs showed about the program (each is a theorem or follows from the model; the property
number says where):

* Lexer: non-ASCII string contents are decoded byte by byte (C04); `/* a **/` and `/*/` are not closed (C06).
* Parser: an opening `<` that is not followed by a name is dropped, and the closing token of a directive
  group is not checked (C11); numbers are reduced modulo 2^32 (C14); `struct X {}` and `enum X {}` are
  rejected although `A {}` and `A()` variants are accepted.
* Rust: duplicate variant numbers do not round-trip, a variant field called `bytes_writer` hides the
  writer (C20); the default of `char` is `0` (C46); a read method with a built-in return type does not
  compile (C51); a read that yields nothing blocks the method forever (C37); whole `f64` constants are
  printed as integer literals (C40); backslashes are not escaped (C41).
* Dart: skip passes over fields of named types once and out of order (C28); `char` and lists of built-in
  types have another layout than in Rust, unsigned numbers turn negative (C29, C30); class names and
  client members can clash (C25, C42, C50); `$` and line breaks are not escaped (C41).
* RPC: answers and requests overwrite each other (C35, C52); a value of a read method is delivered again each
  time the client reads and lost when it is overwritten (C58).
- Accepted schemas for which the generated Rust does not compile (C59): a `char` struct field (default `0`), a name
  that is a Rust keyword (`type`), a variant field called `bytes_writer` or like a struct without fields, a
  struct without fields called like a variable of the emitted code (`value`), and a struct that contains itself.
* Accepted schemas for which the generated Dart does not compile (C60): classes that get the same name (`struct AB`
  and `enum A { B }`), fields called `class`, `to_string`, `reader` or `int`, variant fields called `value` or
  `model` or like their variant, variants called `String`, `Index` or `Default`, and variants written `A()`.
* Accepted schemas for which the generated Rust RPC code does not compile (C62): read methods of built-in types,
  methods called `memory`, `args`, `register_rpc`, `x_rpc_handler` next to `x`, or like a keyword, two methods or
  two arguments of one name, an asynchronous argument `__method_id__`.
* Accepted schemas for which the generated Dart client does not compile (C64): methods called like a reserved word, a
  member of `Object`, `disconnect` or a library name in use; methods or arguments that get the same Dart name;
  arguments called `writer`, `completer`, `result`; ids with a quote; a struct called like the client class.
* In an asynchronous method an integer argument `method_id` is silently replaced by the id of the request (C65).
* After `disconnect`, pending calls and new calls never complete, not even with an error, although the server still
  executes them (C66).
* Accepted constants for which the generated code does not compile (C63): in Rust all constants of type `String` (as in
  the repository's own `consts.rs` golden file) and `char`, `D: f64 = 16.0`, `A: u8 = 300`, two blocks of one name; in
  Dart a constant called `INT` or `BOOL` beside constants of these types; in both, literals of another kind
  (`A: u32 = "x"`).
* Kotlin and Swift: names are converted at declarations but not at uses (C44); `A()` variants (C53, C54);
  `char` and address fields (C43, C54).
* main.rs: the output is truncated before it is written (C49).
* Numbers of struct fields have no effect on the layout (C57).

## Trusted base

* Lean's kernel (Lean 4.33.0).
* The axioms `propext`, `Classical.choice`, `Quot.sound`.  No theorem depends on any other axiom; there is
  no `sorry`, `native_decide`, `bv_decide`, `implemented_by` or `unsafe`.
* The fidelity of `Model/` to the Rust source, as cited line by line; the golden tests in `Tests/` compare
  it with the files that the project itself tests against.
* The fidelity of the evaluators in `Sem/` to Rust and Dart for the small language that the generators
  emit, and of `Spec/` to the English statements.
* The assumptions on external code in the table above.

`seeded/LOG.jsonl` records edits of the model and of the trees that mimic realistic bugs, and the theorems
that rejected them.
