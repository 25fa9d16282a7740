/- What it means for a file on disk to hold a generated program. -/
import Verif.Spec.Main
import Verif.Spec.Output
import Verif.Sem.RustEval
import Verif.Sem.DartEval
namespace TPB.Spec
open Main

/-- The file `p` is UTF-8 and its text is `a`, then the part `s`, then `b`, without the blank lines at the
very end. -/
def FileIs (w : World) (p a s b : String) : Prop :=
  ∃ text, w.text p = some text ∧ StripsTo (a ++ s ++ b) text

/-- The text of a Rust program: the type declarations, a blank line, the `impl` blocks. -/
def rustFileText (items : List Rust.TypeItem) (impls : List Rust.Impl) : String :=
  "\n" ++ linesText 4 (joinBlocks (items.map Rust.TypeItem.render)) ++
  "\n" ++ linesText 4 (joinBlocks (impls.map Rust.Impl.render))

/-- The text of a Dart program: the classes, a blank line, the codec classes. -/
def dartFileText (P : Dart.Prog) : String :=
  "\n" ++ linesText 2 (Dart.renderItems P.items) ++
  "\n" ++ linesText 2 (joinBlocks (P.codecs.map Dart.CodecClass.render))

/-- The Rust program `R` stands in the file `p`, between a beginning `a` and an end `b`. -/
def HoldsRust (w : World) (p a : String) (R : Rust.Prog) (b : String) : Prop :=
  ∃ items : List Rust.TypeItem, items.map (·.decl) = R.decls ∧ FileIs w p a (rustFileText items R.impls) b

/-- The Dart program `P` stands in the file `p`, between a beginning `a` and an end `b`. -/
def HoldsDart (w : World) (p a : String) (P : Dart.Prog) (b : String) : Prop := FileIs w p a (dartFileText P) b

/-- A generation of types and codecs (with or without an RPC section) into a file. -/
structure FullJob (j : Job) (lang : Lang) : Prop where
  lang : j.lang = lang
  models : j.skipModels = false
  buffers : j.skipBuffers = false
  file : j.output ≠ "-"

/-- No generation of the batch overwrites the input of `j`, and no other one writes to its output. -/
def Undisturbed (js : List Job) (j : Job) : Prop :=
  (∀ j' ∈ js, j'.output ≠ j.input) ∧ ∀ j' ∈ js, j'.output = j.output → j' = j

end TPB.Spec
