/- Readers of source text put together with `do`: what is read from the front of a list of pieces. -/
import Verif.Spec.Pieces
namespace TPB.Spec.Combinators
open Pieces

/-- Takes pieces from the front; fails if they are not what it reads. -/
abbrev P (α : Type) := StateT (List Tok) Option α

/-- The pieces of a fixed text. -/
def text (s : String) : P Unit := fun ts => (eat (code s) ts).map (fun r => ((), r))

/-- One given word. -/
def the (w : String) : P Unit := fun ts => (eat [.word w] ts).map (fun r => ((), r))

/-- Any word. -/
def word : P String
  | .word w :: ts => some (w, ts)
  | _ => none

/-- A decimal number. -/
def num : P Nat := number

/-- A condition on what has been read. -/
def fits (c : Bool) : P Unit := if c then pure () else failure

/-- Whether the next piece is `t`; it is not taken. -/
def next (t : Tok) : P Bool := fun ts => some (decide (ts.head? = some t), ts)

/-- Items up to the piece `stop`, which is taken. -/
def until_ {α : Type} (stop : Tok) (item : P α) : P (List α) := fun ts => many item stop ts.length ts

def starFrom {α : Type} (item : P α) : Nat → P (List α)
  | 0, ts => some ([], ts)
  | fuel + 1, ts =>
    match item ts with
    | none => some ([], ts)
    | some (a, r) =>
      match starFrom item fuel r with
      | none => none
      | some (as, r) => some (a :: as, r)

/-- As many items as there are. -/
def star {α : Type} (item : P α) : P (List α) := fun ts => starFrom item ts.length ts

/-- The given number of items. -/
def times {α : Type} (item : P α) : Nat → P (List α)
  | 0 => pure []
  | n + 1 => do
    let a ← item
    let as ← times item n
    pure (a :: as)

/-- Items separated by commas, at least one, with the symbol `stop` after the last. -/
def sepFrom {α : Type} (item : P α) (stop : Char) : Nat → P (List α)
  | 0, _ => none
  | fuel + 1, ts =>
    match item ts with
    | some (a, .sym c :: r) =>
      if c = stop then some ([a], r)
      else if c = ',' then
        match sepFrom item stop fuel r with
        | some (as, r) => some (a :: as, r)
        | none => none
      else none
    | _ => none

def sep {α : Type} (item : P α) (stop : Char) : P (List α) := fun ts => sepFrom item stop ts.length ts

/-- The whole text is a list of items. -/
def whole {α : Type} (item : P α) (s : String) : Option (List α) :=
  (pieces s).bind (fun ts => toEnd item ts.length ts)

/-- What is in front of a given end of a word. -/
def dropEnd (stop word : String) : Option String :=
  if stop.toList.reverse.isPrefixOf word.toList.reverse
  then some (String.ofList (word.toList.reverse.drop stop.length).reverse) else none

/-- What follows a given beginning of a word. -/
def dropStart (start word : String) : Option String :=
  if start.toList.isPrefixOf word.toList then some (String.ofList (word.toList.drop start.length)) else none

/-- A result that may be missing. -/
def some! {α : Type} (a : Option α) : P α := fun ts => a.map (fun a => (a, ts))

end TPB.Spec.Combinators
