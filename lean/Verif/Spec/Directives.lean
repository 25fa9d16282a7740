/-
Directives of a schema.
-/
import Verif.Model.Ast
namespace TPB.Spec

/-- The first directive `#[name = ".."]` of the schema gives the string `s`. -/
def DirectiveIs (S : List ASTNode) (name s : String) : Prop :=
  ∃ before type after, S = before ++ .directive (.value name ⟨.str s, type⟩) :: after ∧
    ∀ v, .directive (.value name v) ∉ before

end TPB.Spec
