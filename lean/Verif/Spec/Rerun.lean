/-
Specification: configurations whose outputs are not read again.
-/
import Verif.Spec.Main
namespace TPB.Main

/-- No file that the configuration at `path` asks to generate is the configuration itself or one of its schemas. -/
def NoFeedback (lib : Lib) (path : String) (w : World) : Prop :=
  ∀ text d dir, w.text path = some text → lib.yaml text = some d → lib.parent path = some dir →
    ∀ j ∈ entries dir d, j.output ≠ "-" → j.output ≠ path ∧ ∀ i ∈ entries dir d, j.output ≠ i.input

end TPB.Main
