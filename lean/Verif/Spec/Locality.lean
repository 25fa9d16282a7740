/-
What C87 says: a generator works declaration by declaration.
-/
import Verif.Spec.WellFormed
import Verif.Model.SwiftGen
import Verif.Model.DartGen
import Verif.Model.RustGen
namespace TPB.Spec

/-- Declarations of types. -/
def isTypeDecl : ASTNode → Bool
  | .struct _ => true
  | .enum _ => true
  | _ => false

/-- The declarations of types in a schema, in order. -/
def typeDecls (S : List ASTNode) : List ASTNode := S.filter isTypeDecl

/-- Texts one after the other; between each two stands one of the given separators. -/
inductive Joined (seps : List String) : List String → String → Prop
  | nil : Joined seps [] ""
  | one (b : String) : Joined seps [b] b
  | more {b c sep out : String} {bs : List String} : sep ∈ seps → Joined seps (c :: bs) out →
      Joined seps (b :: c :: bs) (b ++ sep ++ out)

/-- What a generator prints for a schema is what it prints for each declaration of a type alone, in the order of the
declarations, with nothing but separators in between. -/
def ByDeclaration (seps : List String) (gen : List ASTNode → Except Panic String) (S : List ASTNode) : Prop :=
  ∃ blocks out, (typeDecls S).map (fun d => gen [d]) = blocks.map .ok ∧ gen S = .ok out ∧ Joined seps blocks out

/-- The sections that put exactly one blank line between two declarations: the types and codecs of Rust, the
codecs of Dart, the types of Swift. -/
def evenSections (x : ExtF) : List (List ASTNode → Except Panic String) :=
  [RustGen.models, fun S => .ok (RustGen.buffers S), DartGen.buffers x.toExt, SwiftGen.models x]

/-- The sections that put a blank line between some and nothing between other declarations: the types of Dart and
of Kotlin. -/
def unevenSections (x : ExtF) : List (List ASTNode → Except Panic String) := [DartGen.models x.toExt, KotlinGen.models x]

/-- The text for a declaration stands, unchanged, in the text for a schema. -/
def StandsIn (gen : List ASTNode → Except Panic String) (d : ASTNode) (block : String) (S : List ASTNode) : Prop :=
  gen [d] = .ok block ∧ ∃ before after, gen S = .ok (before ++ block ++ after)

/-- The text of the constructor of a client, given the calls in its body. -/
def constructorText (name calls : String) : String :=
  if calls = "" then "  " ++ name ++ "(this._scheduler);\n" else "  " ++ name ++ "(this._scheduler) {\n" ++ calls ++ "  }\n"

end TPB.Spec
