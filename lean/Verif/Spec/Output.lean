/- Specification vocabulary for whole generated files. -/
import Verif.Model.RustGen
import Verif.Model.DartGen
namespace TPB.Spec

/-- `s` is `t` without the blank lines at its end: only newlines are removed, the last line keeps its
own newline, and no blank line is left. -/
def StripsTo (t s : String) : Prop :=
  (∃ k, t = s ++ String.ofList (List.replicate k '\n') ∧ (k = 0 ∨ ∃ u, s = u ++ "\n")) ∧ ¬ ∃ u, s = u ++ "\n\n"

/-- The text ends in exactly one newline, and does not consist of a newline only. -/
def EndsInOneNewline (s : String) : Prop := ∃ body c, c ≠ '\n' ∧ s = body ++ String.singleton c ++ "\n"

/-- A section, preceded by a blank line, if it is switched on. -/
def on (switch : Bool) (text : String) : String := if switch then "\n" ++ text else ""

/-- The lines that every generated Rust file begins with. -/
def rustHead : String :=
  "// GENERATED, DO NOT EDIT\n\n#![allow(warnings)]\n#![allow(clippy)]\n#![allow(unknown_lints)]\n\n"

/-- The import needed by serialization code. -/
def rustBuffersImport : String := "use tech_paws_buffers::{BytesReader, BytesWriter, IntoVMBuffers};\n"

/-- The imports needed by RPC code (which contains serialization code). -/
def rustRpcImports : String :=
  "use tech_paws_buffers::{BytesReader, BytesWriter, IntoVMBuffers};\nuse tech_paws_runtime::{\n    memory::TechPawsRuntimeMemory, RpcMethodAddress, TechPawsRpcAddress, TechPawsRuntime,\n    TechPawsRuntimeAsyncContext, TechPawsRuntimeRpcMethodBuffer, TechPawsScopeId,\n};\nuse uuid::uuid;\n"

/-- The imports of a generated Rust file. -/
def rustImports (hasMethods withBuffers withRpc : Bool) : String :=
  if withRpc && hasMethods then rustRpcImports else if withBuffers then rustBuffersImport else ""

/-- The lines that every generated Dart file begins with. -/
def dartHead : String := "// GENERATED, DO NOT EDIT\n// ignore_for_file: unused_import\n\n"

def dartBuffersImport : String :=
  "import 'package:tech_paws_buffers/tech_paws_buffers.dart';\nimport 'package:tech_paws_buffers/primitives.dart';\n"

def dartRpcImports : String :=
  "import 'dart:async';\nimport 'dart:convert';\n\nimport 'package:tech_paws_buffers/tech_paws_buffers.dart';\nimport 'package:tech_paws_buffers/primitives.dart';\nimport 'package:tech_paws_runtime/scheduler.dart';\nimport 'package:tech_paws_runtime/tech_paws_runtime.dart';\n"

def dartImports (hasMethods withBuffers withRpc : Bool) : String :=
  if withRpc && hasMethods then dartRpcImports else if withBuffers then dartBuffersImport else ""

/-- Whether the schema declares methods. -/
def hasMethods (S : List ASTNode) : Bool := S.any (fun | .fn _ => true | _ => false)

/-- Whether the schema declares constants. -/
def hasConsts (S : List ASTNode) : Bool := S.any (fun | .const _ => true | _ => false)

/-- The values that the schema gives for a name in groups of directives, in order. -/
def givenValues (S : List ASTNode) (group name : String) : List ConstValue :=
  S.flatMap (fun
    | .directive (.group g ps) => if g = group then (ps.filter (fun p => p.id = name)).map (·.value) else []
    | _ => [])

/-- The lines made from the user's own import directives: every directive value must be a string. -/
def importLines (pre post : String) : List ConstValue → Option String
  | [] => some ""
  | v :: vs =>
    match v.literal, importLines pre post vs with
    | .str s, some rest => some (pre ++ s ++ post ++ "\n" ++ rest)
    | _, _ => none

end TPB.Spec
