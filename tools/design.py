import json
P={json.loads(l)['id']:json.loads(l) for l in open('/verif/properties.jsonl')}
M=json.load(open('/verif/MANIFEST.json'))['claims']
head = r'''# Formal model of tech-paws-buffers in Lean 4

The program under study is a code generator: it reads a schema (`.tpb`), tokenizes and parses
it, and prints Rust, Dart, Kotlin or Swift source text.  The generated text is itself a program
(serializers and RPC glue), so there are two layers to verify: the generator, and what the
generated code does.

## Layout

| Directory (under `lean/Verif`) | Contents |
|---|---|
| `Model/` | executable model of `/repo/src`, function by function, each definition citing file and lines |
| `Spec/` | small independent specifications: token spelling, schema grammar, wire format, RPC messages, readers for generated constants, what a model declares, versions of a schema, ... |
| `Sem/` | syntax trees for the generated code, their text (`render`), the trees for a schema (`gen..`), and evaluators |
| `Proofs/` | auxiliary lemmas |
| `Props/` | the property theorems, one file per group, with non-vacuity examples next to each |
| `Tests/` | `#guard` tests of the model against the golden files in `/repo/test_resources` (tests, not proofs) |

Read in this order: a property in `properties.jsonl`, its theorems in `Props/` (named after the
property, listed in `MANIFEST.json`), the notions of `Spec/` that the statement uses, and then, as far
as the property is about generated code, the trees and evaluators of `Sem/`.

## How the two layers are connected

1. `Model/` prints text, exactly as the Rust source does.
2. `Sem/` defines trees (statements, classes, handlers, ...), a function `render` from trees to lines of
   text, and a function `gen..` from schemas to trees.
3. `Proofs/*Text.lean` prove, for every schema, that the text printed by `Model/` is the rendering of the
   tree (`RustText`, `RustRpcText`, `DartText`, `DartRpcText`, `KotlinText`, `SwiftText`).
4. Theorems about generated code are stated about the evaluation of trees `P` with the hypothesis (or
   through a lemma) that `P` is the tree of the text: `Emits`, and for methods `EmitsRpc`.  This says that
   the generator printed the rendering of `P`, and that an independent reader of the language
   (`Spec/RustReader.lean`, `Spec/DartReader.lean`, `Spec/RustRpcReader.lean`, `Spec/DartRpcReader.lean`)
   finds `P` in the characters of the text whenever the names of the schema can be names in the language.

So an edit of the generator that changes the text breaks step 3 unless the tree is changed in the same
way, and then the theorem about the tree breaks.  Constants are handled differently: the generated text
is read back by an independent reader (`Spec/Reader.lean`), and the theorem compares what is read with
the schema.

## Modelling choices

* A Rust `panic!`/`unwrap` failure is the value `Except.error` of a `Panic` type.  Nothing is hidden
  behind a default value.
* Loops are structurally recursive on a fuel argument; the top-level function supplies
  `input length + 1`, and a theorem (C01, C08) shows that fuel never runs out.
* `StringReader` (byte cursor) is modelled by the list of remaining bytes viewed as Latin-1
  characters, which is what `as_bytes()[i] as char` computes (`C01_cursor` refines the cursor API).
* `u32` positions are natural numbers reduced mod 2^32 where the code casts (`as u32`); counters
  (`+= 1`) are not wrapped: a schema with 2^32 declarations does not fit in memory.
* `f64` literals are kept as their decimal text.
* Evaluators of generated code run with a stack bound and report `fuel` separately from failures of the
  program; theorems say "for every large enough bound".
* Values are trees without sharing.  Dart objects that share parts are in `Sem/DartHeap.lean` and `Sem/DartHeapMethods.lean` (C90, C91) only; there
  every evaluation of a constructor makes a new object, nothing is freed, and an in-place read of a list keeps the
  list and puts new objects into it.  The generated code never compares objects by identity.

## External code: parameters and what is assumed of them

| Parameter | Stands for | Assumed |
|---|---|---|
| `Ext.camel`, `Ext.pascal` | `to_case` of the crate convert_case | nothing in general; theorems about names state what they need |
| `Ext.fmtF64`, `ExtF.whole` | `parse::<f64>` followed by printing; `floor() == value` | C40 assumes that printing keeps the value (hypothesis `hfmt` of the theorem); C17 is stated about them |
| `Lib.yaml`, `Lib.parent` | `serde_yaml`, `Path::parent` | nothing |
| `Wire`, `Rust.Runtime` | the Rust runtime library's byte formats and readers | `Wire.Lawful`: every value of a built-in type has an encoding, a variant number takes four bytes, a `Vec` of length `n` holds `n` values. `Rust.Runtime.Lawful`: readers undo writers |
| `Dart.Runtime` | the Dart runtime library: `writeInt32`, `IntIntoBuffers`, list codecs, factories | `Dart.Runtime.Lawful`: representable values can be written, readers undo writers whatever the object held before, skipping passes over the bytes of one value, default objects exist.  For C89 also `EmptyLists`: the default list is empty.  Floating point values are compared by bit pattern.  Lists are written and skipped element by element and an in-place read of a list makes a new list.  The two library codecs of an external type write the same bytes (C27) |
| `Agree W D` | both libraries together | same bytes for signed numbers, unsigned numbers have the bytes of the signed number with the same bits, same list header and external values (only C29, C30 and the theorems about both sides) |
| `SameStatus` | the status byte of messages | 255 on the Rust side is `hasData` on the Dart side |
| `BufLib` | writing a buffer of the RPC memory | afterwards the buffer begins with the bytes written (`BufLib.Lawful`); what follows them is arbitrary.  One read or write of a buffer is atomic.  Each method has its own two buffers |
| scheduler of the Dart client | `write`, `syncWrite`, `syncRead`, `read`, `loopSyncGroup` | writes happen before the call returns; a read task runs its closure on the whole buffer whenever the runtime decides to; `loopSyncGroup` runs the handlers of the synchronous methods one after the other |
| `rotateMethodId` | next method id | `FreshIds`: the ids of the calls considered are distinct 64-bit integers (only C34_calls_completed) |
| user functions | the functions that handlers call | arbitrary functions of arguments and a state; awaited functions may return at any later moment |

`Sem/LittleEndian.lean` and `Sem/LittleEndianDart.lean` define a concrete little-endian library for each
side and prove all of these laws for them, so that the hypotheses can be met; the examples use them.

## What is modelled

| Source | Model | Not modelled |
|---|---|---|
| `src/lexer.rs` | `Model/Lexer.lean`, complete | |
| `src/parser.rs`, `src/ast.rs` | `Model/Parser.lean`, `Model/Ast.lean`, complete | |
| `src/writer.rs` | `Model/Writer.lean` | |
| `src/rust_generator.rs`, `src/rust/*` | `Model/RustGen.lean`, complete text; semantics of codecs, default values, RPC handlers and registration, constants | what rustc accepts is modelled for types, default values, codecs (C59), the RPC section (C62) and constants (C63), without lifetimes, borrows and `Send` |
| `src/dart_generator.rs`, `src/dart/*` | `Model/DartGen.lean`, complete text; semantics of codecs, model classes, RPC client, constants | what the Dart compiler accepts is modelled for classes, codecs (C60), the RPC client (C64) and constants (C63), without flow analysis and lints |
| `src/kotlin/*`, `src/swift/*` | `Model/KotlinGen.lean`, `Model/SwiftGen.lean`, complete text; constants and models, read back by `Spec/MobileConsts.lean`, `Spec/KotlinReader.lean` and `Spec/SwiftReader.lean` | evaluation of Kotlin and Swift code other than `createDefault` (`Sem/MobileEval.lean`) and constants (`Spec/MobileConsts.lean`); typing rules are in `Spec/MobileTyping.lean`; main.rs does not call these generators |
| `src/main.rs` | `Model/Main.lean`: a process stepped by the answers of the operating system | clap, logs, links and different spellings of one path, other processes; `File::create` is atomic; output `-` is standard output, and failures of closing it are ignored |

In the RPC semantics, statements are interleaved one at a time: a history is any sequence of client
calls, polls of handlers, steps of spawned futures, completions of awaited functions, and runs of client
tasks.  One handler runs at a time per runtime (they borrow the runtime mutably); futures interleave
freely.

## Properties

For each property: what is modelled, and how it is proved.  The status is that of `MANIFEST.json`.

'''
plan = {
'C01':'Lexer. Induction on the remaining text; every scanner shortens it. The cursor API refines lists.',
'C02':'Independent spelling of tokens and of separators (`Spec/Spelling`); induction on the token list.',
'C03':'Spelling of words; scanner invariant for identifiers; keyword table.',
'C04':'Bytes of the contents are followed through the scanner; iff for exactness; witness é.',
'C05':'Positional value of digits computed independently; overflow is an error.',
'C06':'Exact characterisation of the bodies that the scanner closes; witnesses.',
'C07':'Induction on the rest of the line.',
'C08':'Fuel sufficiency for every parser function, for every token vector.',
'C09':'Grammar as an inductive relation (`Spec/Grammar`); completeness by induction on derivations; every well-formed schema has a derivation.',
'C10':'Printer of schemas composed with C02 and C09.',
'C11':'Soundness with respect to the grammar plus two lenient productions; balance of brackets by induction; witnesses.',
'C12':'Consequence of compositionality of derivations.',
'C13':'Invariant of the declaration loop.',
'C14':'Inversion of derivations; reduction modulo 2^32 is exact iff below 2^32.',
'C15':'Inversion of derivations.',
'C16':'Table of built-in types; structural induction on types.',
'C17':'Success of each generator as an iff over the schema.',
'C18':'`List.find?`/`filterMap` as specification.',
'C19':'Wire relation `Enc` (`Spec/Wire`), evaluator of emitted Rust; mutual induction.',
'C20':'As C19; witnesses for duplicate numbers and `bytes_writer`.',
'C21':'Skip evaluator against `Enc`, any count.',
'C22':'Writer evaluator produces `Enc`; inversion for structs, enums, lists.',
'C23':'Case analysis of the emitted match on any tag.',
'C24':'`Enc` is deterministic in a prefix.',
'C25':'Objects represent values (`DRep`, `Spec/Dart`); evaluator of emitted Dart classes; witnesses.',
'C26':'In-place evaluator over arbitrary previous objects.',
'C27':'Induction on the stack bound comparing the two writers.',
'C28':'Evaluator of skip bodies; a layout with named fields first (Spec/DartSkip) describes what is passed over for every order and count; witnesses.',
'C29':'`Sees` relates Rust and Dart values; composition of C22 and C25; refutations for every lawful pair of libraries.',
'C30':'Arithmetic of two\'s complement on top of C29.',
'C31':'Registration and client trees list the same addresses.',
'C32':'Run of one handler; run of the client method around it.',
'C33':'Invariant over all histories: answered requests = calls of the function.',
'C34':'Joint invariant of server and client over all histories (`Proofs/RpcJoint`).',
'C35':'Delivery from the state; invariant that an overwritten answer is lost, for every schema; witness history.',
'C36':'Invariant over all histories: busy flag counts running futures.',
'C37':'Same invariant; witness history for functions that yield nothing.',
'C38':'Text equations between runs with different switches.',
'C39':'The trimming loop.',
'C40':'Independent reader of the generated text (`Spec/Reader`, `Spec/Consts`); induction over constant trees of any depth.',
'C41':'Reader of string literals; iff.',
'C42':'Word decomposition of concatenated names; witness.',
'C43':'Meaning of target types (`Spec/Mobile`) compared with that of the schema; induction on types.',
'C44':'Declared and used names collected from the trees (`Spec/MobileModels`); exactly when they agree, on the text read back (`Props/MobileSpelling`).',
'C45':'Token writer keeps the indentation; induction on nested tokens.',
'C46':'Evaluator of `Default` implementations; iff.',
'C47':'Invariant of every reachable state of the process.',
'C48':'Refinement of the batch loop to its jobs, at any moment.',
'C49':'Invariant; witness for every prefix.',
'C50':'String arithmetic on prefixes and suffixes; witnesses.',
'C51':'Run of read handlers; witness.',
'C52':'Invariant over histories in which requests are only written into empty buffers; refutation for every schema.',
'C53':'Declarations read off the trees compared with the schema.',
'C54':'Default expressions related to the types of fields; witnesses.',
'C55':'`Enc` is monotone in the schema under `Extends` (`Spec/Evolution`).',
'C56':'`AddsMethods`; C33/C34 theorems transported with C55.',
'C58':'Invariant that the client buffer holds a yielded value at or after the last one delivered; stuttering relation `Stutter` (`Spec/RpcDart`). Synchronous read methods: the same invariant, with a user whose functions keep a record (`Spec/Recorded`).',
'C59':'Typing rules for the emitted trees (`Spec/RustTyping`): name resolution, types of expressions, complete records and matches, finite sizes; equivalence with a condition on the schema, proved declaration by declaration.',
'C60':'Rules for the emitted trees (`Spec/DartTyping`): scopes, clashes of names, types of expressions, initialisation; sufficient condition on the schema, proved class by class; families of schemas that violate the rules.',
'C61':'Composition: source text to tree (C10), tree to text (C38), text to file (C47, C48), file to program and its meaning (C19, C29, C34, C59); nothing but file contents in the statement.',
'C63':'Readers of the declared constants, modules and classes; rules of both compilers on what was read; equivalence with a condition on the schema; families of constants that violate it.',
'C64':'Typing rules for the client class (`Spec/DartRpcTyping`): scopes of members, parameters, variables and closures, hidden library names, overriding of members of `Object`; equivalence with a condition on the schema, proved per kind of method; families of schemas that violate it.',
'C65':'Run of the emitted methods (`Sem/DartRpcEval`), where a local variable hides a parameter; the bytes sent are compared with the encoding of the arguments; two calls that differ in a hidden argument are shown to be equal.',
'C66':'Run of the emitted body of `disconnect` (`Sem/DartDisconnect`) inside histories of client and server; invariant that all read tasks are off.',
'C67':'Induction principle for successful reads of the emitted code (`Proofs/Untrusted`), used with types, with encodings and with lengths; a measure on bytes and on the nesting of structs bounds the stack.',
'C68':'Invariant on the code and the variables of all handlers and futures, for all histories; what has been read as a request is typed, or encoded, by C67.',
'C69':'Progress and preservation: what is known of the variables at each statement is computed from the emitted code, and kept by every step of every history; the codecs can write typed values (C02).',
'C70':'Induction principle for successful reads of the emitted Dart code, for new and for existing objects together (`Proofs/UntrustedDart`), used with types and with encodings; a measure on bytes and on the height of types bounds the stack.',
'C71':'From bytes to an encoding on one side (C67, C70), from there to the other side by the agreement of the formats (C29), and back to a read.',
'C72':'Invariant over histories (who registered which completer, who was answered by what), from a case analysis of every reader and every method; progress by the reading lemmas of C70.',
'C73':'Invariant: the phase of the one outstanding request (posted, read, taken, executing, answered) with the list of finished ones; it determines the executions, the buffers and the open call.  Possibility of completion: each phase has a next action, and rank of the phase and work left decrease lexicographically.',
'C74':'A reader of the generated files, written from the grammars of Kotlin and Swift (`Spec/MobileConsts`: lines, literals with suffixes, string escapes and templates, nested objects), returns the constants of the schema: induction over blocks with the writer of indented lines; exact condition for strings; refuting strings.',
'C75':'Typing rules for constants on what the reader returns: names, ranges, suffixes, hidden types; equivalence with a condition on the schema; families of constants that violate it.',
'C76':'Typing rules on the trees of the models, with the libraries as parameters; equivalence with a condition on the schema; families of schemas that violate it.',
'C77':'Evaluator with a stack depth for createDefault on the trees of the models; both languages refine one function that computes default values field by field; soundness, completeness and termination against inductive specifications.',
'C78':'A lexer and recursive-descent reader for the fragment of Rust in which the sections are written, specified without the generator; the printed form of every tree is read back as that tree (lexing lemmas for lines, one lemma per production), and the generated text is such a printed form; the codec theorems are restated for whatever is read.',
'C79':'Induction over the grammar relation (names are identifier tokens) and over the lexer loop (identifier tokens are legal names).',
'C80':'The trees of a schema are a function of a view of its types; an inverse function on trees; the text determines the trees by C78.',
'C81':'As C78: a recursive-descent reader for the fragment of Dart in which models and codecs are written, on shared combinators; each printed class is a block of line pieces whose tokens are known, and one lemma per production reads them back; the codec theorems are restated for whatever is read, together with the exchange between the program read from the Rust text and the one read from the Dart text.',
'C82':'As C78, for the section of methods: the reader yields the statements without empty lines; passing an empty line is a step without effect, so a run of a handler without empty lines equals the run with them, and every history without them is one with more steps (a simulation); the theorems about handlers and histories then hold for whatever section is read.',
'C83':'As C82, for the client class: the reader yields the class without empty lines; empty lines have no effect in the semantics of the client, so that a history of client and server without them is one with more steps of the server; the theorems about histories are proved for these sub-histories and hold for whatever four programs are read.',
'C84':'A reader of the Kotlin fragment by recursive descent on the words and line ends of the text (Spec/KotlinReader.lean), proved to return the tree that the text was printed from; C53, C54, C76 and C77 are then restated for whatever is read. The names that Fit (C76) asks for, with identifiers in the source, give the names that the reader asks for.',
'C85':'As C84 for Swift; the arguments of calls and the values of cases are on lines of their own and the comments before them are kept.',
'C86':'The sections of C38 in the files after a run (C47, C48, C61) are given to the readers of C78, C81, C82 and C83; the theorems about exchange and calls are restated for what is read.',
'C87':'Spec/Locality.lean says when a section is the text of its declarations one by one; proved from the trees of C19, C27, C36 and C84 by induction on the list of declarations. For rpc the parts of a method are given as functions of the method chosen before the schema.',
'C88':'Sem/DartMethods.lean evaluates the constructors and the methods createV, toV and isV of the trees whose text is the generated file (Sem/DartIR.lean); Spec/DartMethods.lean says how a payload is passed. Proved by running the assignments one by one on an object with the payload of one variant singled out, and by C25 for the objects that were sent.',
'C89':'Spec/DartDefault.lean instantiates the default values of C46 for the schema as Dart sees it; a type is Built if it does not contain itself; by induction on this, the factory of a type that is Built returns an object that represents the default value, and by induction on the depth of calls a factory that returns belongs to a type that is Built.',
'C90':'Sem/DartHeap.lean evaluates the trees of Sem/DartIR.lean on a memory of objects; Spec/DartHeap.lean says which object a reference stands for, what can be reached from it and whether anything is reached twice. By induction on the depth of calls every run of Sem/DartEval.lean on values is simulated by one on the memory, with a frame condition: only the parts of the object change, and new parts are new objects.',
'C91':'Sem/DartHeapMethods.lean evaluates the constructors and methods of C88 on the memory of C90. One lemma about the common body of createV and toV: the assignments fill the payload object, nothing else changes, and the value is that of the run of Sem/DartMethods.lean. The refutation is a concrete memory; that its object stands for no value is by induction on the relation of Spec/DartHeap.lean, that it is never written by induction on the depth of calls.',
'C92':'Invariant of the loop of the lexer: a text collected as decimal contains a point; the standard grammar of numbers is split at it. One lemma carries a property of names, strings and numbers to all tokens, another from tokens to constants by induction over the grammar. Two refutations by sources.',
'C93':'`Spec/Renaming` relates types, schemas and values of two schemas that differ in names. By induction over this relation both values have the same documented bytes, and every value has a counterpart; reading and writing then follow from the theorems about one schema. A pair of schemas shows what happens when fields trade places.',
'C94':'As C56, with the relation of C93 on methods: requests and answers of the old version are, byte for byte, requests and answers of the new version for the renamed values; one lemma about a synchronous call between two schemas serves both C56 and C94.',
'C95':'The bytes of a struct or argument list are the bytes of its first part followed by those of the rest; the common part is carried over by the relation of C93, so the shorter version reads a prefix and the longer one reads on into whatever follows. The calls use the lemma about a call between two schemas of C94; the refutation runs two calls in a row on one buffer.',
'C96':'The lemma about a call between two schemas of C94, for two methods at the same place of schemas that are not related otherwise; places are the addresses of C13. For a removed method all handlers of the server are idle, and the client reads what its buffer held before.',
'C97':'Two runs of the constructor and of the same method, on the same buffers; the answer is read by each client separately, by the lemma of C34 about one answer.',
'C98':'Two worlds that agree on all files that are not outputs: runs from both succeed alike, and agree on one more output after each job (induction over the batch of C48). What a stopped run leaves agrees with the start by C48 and C49. Generated Rust files are no schemas: by C38 their first line is a comment and the next tokens are # and !, which no declaration begins with; Dart files with imports have the word import there.',
'C99':'Induction over the batch of C48: as no output is an input, every entry is generated from the texts at the start. The last entry with an output decides by C48_written. The order theorem compares two such descriptions; the case of a common output is refuted with a concrete pair of configurations.',
'C62':'Typing rules for handlers, argument structs and registration (`Spec/RustRpcTyping`): scopes of variables, what `async move` captures, types of calls and results; equivalence with a condition on the schema, proved per kind of method; families of schemas that violate it.',
'C57':'Sorted and unsorted field lists; witness that is misread silently; every generator is shown to give the same text when only field numbers change (`Spec/FieldNumbers`).',
}
out=head
for c in M:
    p=c['property']
    out+=f"* **{p}** {P[p]['title']} ({c['status']}). {plan.get(p,'')}"
    if c['note']: out+=f" {c['note']}"
    out+="\n"
tail=r'''
No property is declared inexpressible.  Out of scope: lints and flow analysis of
the generated code (for what compilers accept see C59, C60, C62 to C64, C75 and C76), and the behaviour of the external runtime libraries beyond the stated laws.

## Findings

What the proofs showed about the program (each is a theorem or follows from the model; the property
number says where):

* Lexer: non-ASCII string contents are decoded byte by byte (C04); `/* a **/` and `/*/` are not closed (C06).
* Parser: an opening `<` that is not followed by a name is dropped, and the closing token of a directive
  group is not checked (C11); numbers are reduced modulo 2^32 (C14); `struct X {}` and `enum X {}` are
  rejected although `A {}` and `A()` variants are accepted.
* Rust: duplicate variant numbers do not round-trip, a variant field called `bytes_writer` hides the
  writer (C20); the default of `char` is `0` (C46); a read method with a built-in return type does not
  compile (C51); a read that yields nothing blocks the method forever (C37); whole `f64` constants are
  printed as integer literals (C40); backslashes are not escaped (C41).
* Dart: skip passes over fields of named types once and out of order (C28); `char` and lists of built-in
  types have another layout than in Rust, unsigned numbers turn negative (C29, C30); class names and
  client members can clash (C25, C42, C50); `$` and line breaks are not escaped (C41).
* RPC: answers and requests overwrite each other (C35, C52); a value of a read method is delivered again each
  time the client reads and lost when it is overwritten (C58).
- Accepted schemas for which the generated Rust does not compile (C59): a `char` struct field (default `0`), a name
  that is a Rust keyword (`type`), a variant field called `bytes_writer` or like a struct without fields, a
  struct without fields called like a variable of the emitted code (`value`), and a struct that contains itself.
* Accepted schemas for which the generated Dart does not compile (C60): classes that get the same name (`struct AB`
  and `enum A { B }`), fields called `class`, `to_string`, `reader` or `int`, variant fields called `value` or
  `model` or like their variant, variants called `String`, `Index` or `Default`, and variants written `A()`.
* Accepted schemas for which the generated Rust RPC code does not compile (C62): read methods of built-in types,
  methods called `memory`, `args`, `register_rpc`, `x_rpc_handler` next to `x`, or like a keyword, two methods or
  two arguments of one name, an asynchronous argument `__method_id__`.
* Accepted schemas for which the generated Dart client does not compile (C64): methods called like a reserved word, a
  member of `Object`, `disconnect` or a library name in use; methods or arguments that get the same Dart name;
  arguments called `writer`, `completer`, `result`; ids with a quote; a struct called like the client class.
* In an asynchronous method an integer argument `method_id` is silently replaced by the id of the request (C65).
* After `disconnect`, pending calls and new calls never complete, not even with an error, although the server still
  executes them (C66).
* Accepted constants for which the generated code does not compile (C63): in Rust all constants of type `String` (as in
  the repository's own `consts.rs` golden file) and `char`, `D: f64 = 16.0`, `A: u8 = 300`, two blocks of one name; in
  Dart a constant called `INT` or `BOOL` beside constants of these types; in both, literals of another kind
  (`A: u32 = "x"`).
* Kotlin and Swift: names are converted at declarations but not at uses (C44); `A()` variants (C53, C54);
  `char` and address fields (C43, C54).
* main.rs: the output is truncated before it is written (C49).
* Numbers of struct fields have no effect on the layout (C57).

## Trusted base

* Lean's kernel (Lean 4.33.0).
* The axioms `propext`, `Classical.choice`, `Quot.sound`.  No theorem depends on any other axiom; there is
  no `sorry`, `native_decide`, `bv_decide`, `implemented_by` or `unsafe`.
* The fidelity of `Model/` to the Rust source, as cited line by line; the golden tests in `Tests/` compare
  it with the files that the project itself tests against.
* The fidelity of the evaluators in `Sem/` to Rust and Dart for the small language that the generators
  emit, and of `Spec/` to the English statements.
* The assumptions on external code in the table above.

`seeded/LOG.jsonl` records edits of the model and of the trees that mimic realistic bugs, and the theorems
that rejected them.
'''
open('/verif/DESIGN.md','w').write(out+tail)
