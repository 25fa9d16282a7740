/-
A reader of source text in the curly-bracket languages Rust and Dart (and, with newlines kept, Kotlin
and Swift), written without reference to the generators: characters to words, string literals and
symbols; these to statements; literals to the values they denote.  It knows just enough of the
languages to say which constants a text declares.
-/
import Verif.Spec.Spelling
namespace TPB.Spec

/-- A piece of source text: a word (identifier, keyword or number), the raw text between the quotes of
a string literal, or a symbol.  The end of a line is the symbol `'\n'`. -/
inductive Tok where
  | word (s : String)
  | str (raw : String)
  | sym (c : Char)
  deriving DecidableEq, Repr

/-- Letters, digits, underscore. -/
def isWordChar (c : Char) : Bool := decide (IsLetter c ∨ IsDigit c)

/-- Where the reader is: between pieces, in a word (`num`: it began with a digit, so a point belongs to
it), in a string literal, after a backslash in a string literal. -/
inductive ScanState where
  | idle
  | word (num : Bool) (acc : List Char)
  | str (acc : List Char)
  | esc (acc : List Char)
  deriving DecidableEq, Repr

/-- A character between pieces. -/
def scanStart (c : Char) : List Tok × ScanState :=
  if c = ' ' ∨ c = '\r' ∨ c = '\t' then ([], .idle)
  else if c = '"' then ([], .str [])
  else if isWordChar c then ([], .word (decide (IsDigit c)) [c])
  else ([.sym c], .idle)

def scanStep : ScanState → Char → List Tok × ScanState
  | .idle, c => scanStart c
  | .word num acc, c =>
    if isWordChar c ∨ (num = true ∧ c = '.') then ([], .word num (acc ++ [c]))
    else (.word (String.ofList acc) :: (scanStart c).1, (scanStart c).2)
  | .str acc, c =>
    if c = '"' then ([.str (String.ofList acc)], .idle)
    else if c = '\\' then ([], .esc (acc ++ [c]))
    else ([], .str (acc ++ [c]))
  | .esc acc, c => ([], .str (acc ++ [c]))

def scanFrom : ScanState → List Char → Option (List Tok)
  | .idle, [] => some []
  | .word _ acc, [] => some [.word (String.ofList acc)]
  | .str _, [] => none
  | .esc _, [] => none
  | s, c :: cs => ((scanStep s c).1 ++ ·) <$> scanFrom (scanStep s c).2 cs

/-- The pieces of a text; `none` if a string literal is not closed. -/
def scan (text : String) : Option (List Tok) := scanFrom .idle text.toList

/-- A statement: its pieces and the symbol that ends it, one of `;`, `{`, `}`. -/
abbrev Stmt := List Tok × Char

/-- The symbols that end a statement. -/
def isEnd (t : Tok) : Option Char :=
  if t = .sym ';' then some ';'
  else if t = .sym '{' then some '{'
  else if t = .sym '}' then some '}'
  else none

def stmtsFrom : List Tok → List Tok → Option (List Stmt)
  | acc, [] => if acc = [] then some [] else none
  | acc, t :: ts =>
    match isEnd t with
    | some c => ((acc, c) :: ·) <$> stmtsFrom [] ts
    | none => if t = .sym '\n' then stmtsFrom acc ts else stmtsFrom (acc ++ [t]) ts

/-- The statements of a text in a language that ends statements with semicolons. -/
def stmts (text : String) : Option (List Stmt) := (scan text).bind (stmtsFrom [])

/-! ### Literals -/

/-- Value of decimal digits. -/
def decimal (cs : List Char) : Nat := cs.foldl (fun a c => a * 10 + (c.toNat - 48)) 0

/-- Decimal digits, at least one. -/
def IsDecimal (cs : List Char) : Prop := cs ≠ [] ∧ ∀ c ∈ cs, IsDigit c

/-- Decimal digits, a point, decimal digits. -/
def IsFraction (cs : List Char) : Prop :=
  IsDecimal (cs.takeWhile (· ≠ '.')) ∧ ∃ fs, cs.dropWhile (· ≠ '.') = '.' :: fs ∧ IsDecimal fs

instance (cs : List Char) : Decidable (IsDecimal cs) := by unfold IsDecimal; infer_instance

instance (cs : List Char) : Decidable (IsFraction cs) := by
  unfold IsFraction
  match h : cs.dropWhile (· ≠ '.') with
  | [] => exact isFalse (by simp)
  | c :: fs =>
    exact if hc : c = '.' ∧ IsDecimal (cs.takeWhile (· ≠ '.')) ∧ IsDecimal fs
      then isTrue ⟨hc.2.1, fs, by rw [hc.1], hc.2.2⟩
      else isFalse (fun ⟨h1, gs, h2, h3⟩ => by
        simp only [List.cons.injEq] at h2
        exact hc ⟨h2.1, h1, h2.2 ▸ h3⟩)

/-- The literal written as a single word: `true`, `false`, an integer or a decimal fraction. -/
def wordLit (w : String) : Option Literal :=
  if w = "true" then some (.bool true)
  else if w = "false" then some (.bool false)
  else if IsDecimal w.toList then some (.int (decimal w.toList))
  else if IsFraction w.toList then some (.num w)
  else none

/-- The literal that pieces denote; `str` says what the raw text of a string literal denotes. -/
def readLit (str : String → Option String) : List Tok → Option Literal
  | [.str raw] => (str raw).map .str
  | [.word w] => wordLit w
  | [.sym '-', .word w] => if IsDecimal w.toList then some (.int (- (decimal w.toList : Int))) else none
  | _ => none

/-! ### String literals

What the text between the quotes denotes, character by character. -/

/-- Fold a step function over the raw text. -/
def decodeWith {σ : Type} (step : σ → Char → Option (List Char × σ)) (ok : σ → Bool) :
    σ → List Char → Option (List Char)
  | s, [] => if ok s then some [] else none
  | s, c :: cs =>
    match step s c with
    | none => none
    | some (out, s') => (out ++ ·) <$> decodeWith step ok s' cs

def isHexDigit (c : Char) : Bool :=
  ('0' ≤ c && c ≤ '9') || ('a' ≤ c && c ≤ 'f') || ('A' ≤ c && c ≤ 'F')

def hexDigit (c : Char) : Nat :=
  if c ≤ '9' then c.toNat - 48 else if c ≤ 'F' then c.toNat - 55 else c.toNat - 87

def hexValue (cs : List Char) : Nat := cs.foldl (fun a c => a * 16 + hexDigit c) 0

/-- After a backslash, in a fixed-length hexadecimal escape, in `\u{...}`, in the white space after an
escaped newline, after a carriage return. -/
inductive DecState where
  | plain | esc | hex (n : Nat) (ds : List Char) | uOpen | uni (ds : List Char) | skip | cr
  deriving DecidableEq

/-- A character that stands for a code point, if there is one. -/
def codePoint (n : Nat) : Option (List Char × DecState) :=
  if n.isValidChar then some ([Char.ofNat n], .plain) else none

/-- Rust (The Rust Reference, "String literals" and "Input format"). -/
def rustStep : DecState → Char → Option (List Char × DecState)
  | .plain, c => plain c
  | .skip, c => if c = ' ' ∨ c = '\n' ∨ c = '\r' ∨ c = '\t' then some ([], .skip) else plain c
  | .cr, c => if c = '\n' then some (['\n'], .plain) else none
  | .esc, c =>
    if c = 'n' then some (['\n'], .plain)
    else if c = 'r' then some (['\r'], .plain)
    else if c = 't' then some (['\t'], .plain)
    else if c = '0' then some ([Char.ofNat 0], .plain)
    else if c = '\\' ∨ c = '"' ∨ c = '\'' then some ([c], .plain)
    else if c = 'x' then some ([], .hex 2 [])
    else if c = 'u' then some ([], .uOpen)
    else if c = '\n' then some ([], .skip)
    else none
  | .hex n ds, c =>
    if !isHexDigit c then none
    else if n ≤ 1 then
      if hexValue (ds ++ [c]) < 128 then codePoint (hexValue (ds ++ [c])) else none
    else some ([], .hex (n - 1) (ds ++ [c]))
  | .uOpen, c => if c = '{' then some ([], .uni []) else none
  | .uni ds, c =>
    if c = '}' then
      if ds = [] ∨ 6 < ds.length then none else codePoint (hexValue ds)
    else if isHexDigit c then some ([], .uni (ds ++ [c]))
    else if c = '_' ∧ ds ≠ [] then some ([], .uni ds)
    else none
where
  plain (c : Char) : Option (List Char × DecState) :=
    if c = '\\' then some ([], .esc)
    else if c = '\r' then some ([], .cr)
    else if c = '"' then none
    else some ([c], .plain)

/-- What the raw text of a Rust string literal denotes; `none` if it is not a string literal. -/
def rustString (raw : String) : Option String :=
  (decodeWith rustStep (fun s => s = .plain || s = .skip) .plain raw.toList).map String.ofList

/-- Dart (Dart language specification, "Strings"): a single-line literal has no line break, and a `$`
begins an interpolation, so that the literal is not a constant text. -/
def dartStep : DecState → Char → Option (List Char × DecState)
  | .plain, c =>
    if c = '\\' then some ([], .esc)
    else if c = '$' ∨ c = '\n' ∨ c = '\r' ∨ c = '"' then none
    else some ([c], .plain)
  | .esc, c =>
    if c = 'n' then some (['\n'], .plain)
    else if c = 'r' then some (['\r'], .plain)
    else if c = 't' then some (['\t'], .plain)
    else if c = 'f' then some ([Char.ofNat 12], .plain)
    else if c = 'b' then some ([Char.ofNat 8], .plain)
    else if c = 'v' then some ([Char.ofNat 11], .plain)
    else if c = 'x' then some ([], .hex 2 [])
    else if c = 'u' then some ([], .uOpen)
    else if c = '\n' ∨ c = '\r' then none
    else some ([c], .plain)
  | .hex n ds, c =>
    if !isHexDigit c then none
    else if n ≤ 1 then codePoint (hexValue (ds ++ [c]))
    else some ([], .hex (n - 1) (ds ++ [c]))
  | .uOpen, c =>
    if c = '{' then some ([], .uni [])
    else if isHexDigit c then some ([], .hex 3 [c])
    else none
  | .uni ds, c =>
    if c = '}' then
      if ds = [] then none else codePoint (hexValue ds)
    else if isHexDigit c then some ([], .uni (ds ++ [c]))
    else none
  | .skip, _ => none
  | .cr, _ => none

/-- What the raw text of a Dart string literal denotes; `none` if it is not a constant text. -/
def dartString (raw : String) : Option String :=
  (decodeWith dartStep (fun s => s = .plain) .plain raw.toList).map String.ofList

end TPB.Spec
