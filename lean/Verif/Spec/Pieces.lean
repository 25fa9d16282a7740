/-
The parts of a reader of source text that do not depend on the language: the text is cut into words,
literals and symbols by `Spec/Reader.lean`; readers take pieces from the front and are put together from
smaller ones.
-/
import Verif.Spec.Reader
namespace TPB.Spec.Pieces

/-- The pieces of a text without the ends of lines, which mean nothing in Rust and Dart. -/
def pieces (text : String) : Option (List Tok) := (scan text).map (·.filter (· ≠ .sym '\n'))

/-- The pieces of a fixed text. -/
def code (text : String) : List Tok := (pieces text).getD []

/-- A reader takes pieces from the front; `none` if they are not what it reads. -/
abbrev Reader (α : Type) := List Tok → Option (α × List Tok)

/-- Exactly these pieces. -/
def eat : List Tok → List Tok → Option (List Tok)
  | [], ts => some ts
  | _ :: _, [] => none
  | p :: ps, t :: ts => if p = t then eat ps ts else none

/-- A decimal number. -/
def number : Reader Nat
  | .word w :: ts => if IsDecimal w.toList then some (decimal w.toList, ts) else none
  | _ => none

/-- Items up to the piece `stop`. -/
def many {α : Type} (item : Reader α) (stop : Tok) : Nat → Reader (List α)
  | 0, _ => none
  | _ + 1, [] => none
  | fuel + 1, t :: ts =>
    if t = stop then some ([], ts)
    else
      match item (t :: ts) with
      | none => none
      | some (a, r) =>
        match many item stop fuel r with
        | none => none
        | some (as, r) => some (a :: as, r)

/-- Items up to the piece `stop`; there are at most as many as there are pieces. -/
def upTo {α : Type} (stop : Char) (item : Reader α) : Reader (List α) :=
  fun ts => many item (.sym stop) ts.length ts

/-- Items up to the end of the text. -/
def toEnd {α : Type} (item : Reader α) : Nat → List Tok → Option (List α)
  | _, [] => some []
  | 0, _ :: _ => none
  | fuel + 1, t :: ts =>
    match item (t :: ts) with
    | none => none
    | some (a, r) => (a :: ·) <$> toEnd item fuel r

/-- An item with fixed pieces after it. -/
def before {α : Type} (after : List Tok) (item : Reader α) : Reader α := fun ts =>
  match item ts with
  | none => none
  | some (a, r) =>
    match eat after r with
    | none => none
    | some r => some (a, r)

end TPB.Spec.Pieces
