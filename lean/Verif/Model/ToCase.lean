/-
A concrete implementation of the part of the external crate convert_case 0.5.0 that the generators
use (`to_case(Case::Camel)`, `to_case(Case::Pascal)` with the default word boundaries).  The crate
is not in the repository: this file is used only by the golden tests and by counterexamples, and
every positive theorem is stated for arbitrary `camel`/`pascal` functions.
-/
import Verif.Model.KotlinGen
namespace TPB

/-- Is there a word boundary between `a` and `b` (LowerUpper, UpperDigit, DigitUpper, DigitLower,
LowerDigit), or between `a` and `b` when `c` follows (Acronym)? -/
def caseBoundary (a b : Char) (c : Option Char) : Bool :=
  (a.isLower && b.isUpper) || (a.isUpper && b.isDigit) || (a.isDigit && b.isUpper) ||
  (a.isDigit && b.isLower) || (a.isLower && b.isDigit) ||
  (a.isUpper && b.isUpper && (c.map Char.isLower).getD false)

/-- Split into words; `cur` is the current word, reversed. -/
def caseWords (cur : List Char) : List Char → List (List Char)
  | [] => [cur.reverse]
  | a :: rest =>
    if a = '_' || a = '-' || a = ' ' then cur.reverse :: caseWords [] rest
    else
      match rest with
      | b :: rest' =>
        if caseBoundary a b rest'.head? then (a :: cur).reverse :: caseWords [] (b :: rest')
        else caseWords (a :: cur) (b :: rest')
      | [] => [(a :: cur).reverse]

def capitalWord : List Char → List Char
  | [] => []
  | c :: cs => c.toUpper :: cs.map Char.toLower

def toCaseWords (s : String) : List (List Char) := (caseWords [] s.toList).filter (· ≠ [])

/-- `to_case(Case::Pascal)`. -/
def toPascal (s : String) : String := String.ofList ((toCaseWords s).map capitalWord).flatten

/-- `to_case(Case::Camel)`. -/
def toCamel (s : String) : String :=
  match toCaseWords s with
  | [] => ""
  | w :: ws => String.ofList (w.map Char.toLower ++ (ws.map capitalWord).flatten)

/-- The external functions used in tests and counterexamples; decimal literals are printed as
written. -/
def testExt : Ext := ⟨toCamel, toPascal, id⟩

/-- `value.floor() == *value` for a decimal source text: no digit but zero after the point. -/
def wholeText (t : String) : Bool := ((t.toList.dropWhile (· ≠ '.')).drop 1).all (· = '0')

def testExtF : ExtF := { testExt with whole := wholeText }

end TPB
