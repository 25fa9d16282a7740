/- What a generated file on disk says: its sections, each read by an independent reader. -/
import Verif.Spec.EndToEnd
import Verif.Spec.RustRpcReader
import Verif.Spec.DartRpcReader
namespace TPB.Spec
open Main

/-- The file `p` is UTF-8 and its text is `start`, then the given sections with an empty line before each, without the
blank lines at the very end. -/
def SectionsAre (w : World) (p start : String) (sections : List String) : Prop :=
  ∃ text, w.text p = some text ∧ StripsTo (sections.foldl (fun a s => a ++ ("\n" ++ s)) start) text

/-- After `start`, the file `p` has a section that declares types and one with their codecs, which are read as `P`,
and then the sections `more`. -/
def RustFileSays (w : World) (p start : String) (P : Rust.Prog) (more : List String) : Prop :=
  ∃ types codecs, SectionsAre w p start (types :: codecs :: more) ∧ RustReader.readProgram types codecs = some P

/-- The same for a Dart file. -/
def DartFileSays (w : World) (p start : String) (P : Dart.Prog) (more : List String) : Prop :=
  ∃ classes codecs, SectionsAre w p start (classes :: codecs :: more) ∧ DartReader.readProgram classes codecs = some P

/-- A Rust file with types, codecs and methods; `ret` are the declared result types. -/
def ServerFileSays (w : World) (p start : String) (ret : String → TypeId) (P : Rust.Prog) (R : Rust.RpcSection) : Prop :=
  ∃ methods, RustFileSays w p start P [methods] ∧ RustRpcReader.readRpc ret methods = some R

/-- A Dart file with classes, codecs and a client. -/
def ClientFileSays (w : World) (p start : String) (P : Dart.Prog) (C : Dart.Client) : Prop :=
  ∃ client, DartFileSays w p start P [client] ∧ DartRpcReader.readClient client = some C

/-- How a Rust file begins: the fixed first lines, the imports that the sections need, those that the schema asks for,
and the constants. -/
def RustStart (x : Ext) (S : List ASTNode) (rpc : Bool) (start : String) : Prop :=
  ∃ uses, importLines "use " ";" (givenValues S "rust" "use") = some uses ∧
    start = rustHead ++ rustImports (hasMethods S) true rpc ++ uses ++ on (hasConsts S) (RustGen.consts x S)

/-- How a Dart file begins. -/
def DartStart (x : Ext) (S : List ASTNode) (rpc : Bool) (start : String) : Prop :=
  ∃ uses, importLines "import '" "';" (givenValues S "dart" "import") = some uses ∧
    start = dartHead ++ dartImports (hasMethods S) true rpc ++ uses ++ on (hasConsts S) (DartGen.consts x S)

end TPB.Spec
