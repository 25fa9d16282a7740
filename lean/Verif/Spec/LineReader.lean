/- Readers of source text in languages where the end of a line ends a statement. -/
import Verif.Spec.Combinators
namespace TPB.Spec.Combinators
open Pieces

/-- The end of a line. -/
def endLine : P Unit := fun ts => (eat [.sym '\n'] ts).map (fun r => ((), r))

/-- The end of a line, if it is here. -/
def mayEndLine : P Unit := do
  if ← next (.sym '\n') then endLine else pure ()

/-- An empty line, or an item. -/
def orBlank {α : Type} (item : P α) : P (Option α) := do
  if ← next (.sym '\n') then
    endLine
    pure none
  else
    let a ← item
    pure (some a)

/-- Whether the second of the next pieces is `t`; nothing is taken. -/
def second (t : Tok) : P Bool := fun ts => some (decide (ts.tail.head? = some t), ts)

def rowsFrom {α : Type} (item : P α) (stop : Char) : Nat → P (List α)
  | 0 => failure
  | fuel + 1 => do
    endLine
    let a ← item
    if ← next (.sym ',') then
      text ","
      let as ← rowsFrom item stop fuel
      pure (a :: as)
    else
      endLine
      fun ts => (eat [.sym stop] ts).map (fun r => ([a], r))

/-- Items on lines of their own, separated by commas, at least one, with the symbol `stop` on the line after the
last. -/
def rows {α : Type} (item : P α) (stop : Char) : P (List α) := fun ts => rowsFrom item stop ts.length ts

/-- The whole text is a list of items and empty lines. -/
def wholeLines {α : Type} (item : P α) (s : String) : Option (List α) :=
  (scan s).bind (fun ts => (toEnd (orBlank item) ts.length ts).map (·.filterMap id))

/-- A literal: a string, a word that begins with a digit, `true` or `false`; as it is written. -/
def literal : List Tok → Option (String × List Tok)
  | .str raw :: ts => some ("\"" ++ raw ++ "\"", ts)
  | .word w :: ts =>
    if w = "true" ∨ w = "false" ∨ w.toList.head?.any (fun c => decide (IsDigit c)) = true then some (w, ts) else none
  | _ => none

end TPB.Spec.Combinators
