/-
Specification: what one entry of a configuration generates.
-/
import Verif.Spec.Main
namespace TPB.Main

/-- The schema of the entry is readable text in these files and is accepted; `data` is the text generated from it. -/
def Result (lib : Lib) (w : World) (j : Job) (data : String) : Prop :=
  ∃ text, w.text j.input = some text ∧ Accepts lib.ext j text data

/-- No two entries are written to the same file (`-` is standard output). -/
def DistinctOutputs (js : List Job) : Prop := js.Pairwise fun a b => a.output ≠ "-" → a.output ≠ b.output

instance (js : List Job) : Decidable (DistinctOutputs js) := inferInstanceAs (Decidable (js.Pairwise _))

end TPB.Main
