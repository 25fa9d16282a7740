/-
Identifiers of the generated languages: a letter or underscore, then letters, digits and underscores.
-/
namespace TPB.Spec

def isIdent (s : String) : Bool :=
  match s.toList with
  | [] => false
  | c :: cs => (c.isAlpha || c == '_') && cs.all (fun d => d.isAlphanum || d == '_')

end TPB.Spec
