/-
The default values that the Dart library supplies.
-/
import Verif.Sem.DartEval
import Verif.Spec.Default
namespace TPB.Spec

/-- The default list is empty; the default of an external type is what its factory in the library returns. -/
def dartDefaults (rt : Dart.Runtime) : Defaults where
  ext := rt.newX
  shape c := if c = "Vec" then some 0 else none
  sub _ _ := []

/-- What is assumed of the library: `const ListBuffersFactory<..>().createDefault()` is the empty list. -/
def EmptyLists (rt : Dart.Runtime) : Prop := ∀ args : String, rt.newX ("List<" ++ args) = some (.list 0 [])

/-- A list has one type of elements. -/
def ListsOfOne (S : List ASTNode) : Prop := ∀ d ∈ S, ∀ gs, .generic "Vec" gs ∈ directTypes d → gs.length = 1

end TPB.Spec
