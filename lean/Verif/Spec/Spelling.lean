/-
Specification of the lexical syntax of `.tpb` files, independent of the lexer: how each token may be
written, what may stand between tokens, and when two tokens need no separator.
-/
import Verif.Model.Lexer
namespace TPB.Spec

/-- ASCII letter or underscore. -/
def IsLetter (c : Char) : Prop :=
  ('a' ≤ c ∧ c ≤ 'z') ∨ ('A' ≤ c ∧ c ≤ 'Z') ∨ c = '_'

/-- Decimal digit. -/
def IsDigit (c : Char) : Prop := '0' ≤ c ∧ c ≤ '9'

/-- Upper-case hexadecimal digit. -/
def IsHexDigit (c : Char) : Prop := ('0' ≤ c ∧ c ≤ '9') ∨ ('A' ≤ c ∧ c ≤ 'F')

instance (c : Char) : Decidable (IsLetter c) := by unfold IsLetter; infer_instance
instance (c : Char) : Decidable (IsDigit c) := by unfold IsDigit; infer_instance
instance (c : Char) : Decidable (IsHexDigit c) := by unfold IsHexDigit; infer_instance

/-- Identifier text: a letter followed by letters and digits. -/
def IsIdent : List Char → Prop
  | [] => False
  | c :: cs => IsLetter c ∧ ∀ d ∈ cs, IsLetter d ∨ IsDigit d

instance : (cs : List Char) → Decidable (IsIdent cs)
  | [] => inferInstanceAs (Decidable False)
  | c :: cs => inferInstanceAs (Decidable (IsLetter c ∧ ∀ d ∈ cs, IsLetter d ∨ IsDigit d))

/-- The reserved words. -/
def reserved : List String := ["struct", "enum", "fn", "read", "async", "const", "true", "false"]

/-- The character of a digit value below 16. -/
def digitChar : Nat → Char
  | 0 => '0' | 1 => '1' | 2 => '2' | 3 => '3' | 4 => '4' | 5 => '5' | 6 => '6' | 7 => '7'
  | 8 => '8' | 9 => '9' | 10 => 'A' | 11 => 'B' | 12 => 'C' | 13 => 'D' | 14 => 'E' | _ => 'F'

/-- Value of a digit sequence, most significant digit first. -/
def digitsValue (radix : Nat) (ds : List Nat) : Nat := ds.foldl (fun a d => a * radix + d) 0

/-- Text of digits in which each one may be preceded by a single underscore. -/
def groupText : List (Bool × Nat) → List Char
  | [] => []
  | (true, d) :: r => '_' :: digitChar d :: groupText r
  | (false, d) :: r => digitChar d :: groupText r

/-- `Spells t x`: the characters `x` are a way to write the token `t`. -/
inductive Spells : Token → List Char → Prop
  | kwStruct : Spells .kwStruct "struct".toList
  | kwEnum : Spells .kwEnum "enum".toList
  | kwFn : Spells .kwFn "fn".toList
  | kwRead : Spells .kwRead "read".toList
  | kwAsync : Spells .kwAsync "async".toList
  | kwConst : Spells .kwConst "const".toList
  | true : Spells (.lit (.bool Bool.true)) "true".toList
  | false : Spells (.lit (.bool Bool.false)) "false".toList
  | id (name : String) : IsIdent name.toList → name ∉ reserved → Spells (.id name) name.toList
  | str (s : String) : '"' ∉ s.toList → Spells (.lit (.str s)) ('"' :: (s.toList ++ ['"']))
  /-- decimal integer, e.g. `1_000_000` -/
  | dec (d : Nat) (ds : List (Bool × Nat)) :
      d < 10 → (∀ p ∈ ds, p.2 < 10) → digitsValue 10 (d :: ds.map (·.2)) < 2 ^ 63 →
      Spells (.lit (.int (digitsValue 10 (d :: ds.map (·.2))))) (digitChar d :: groupText ds)
  /-- hexadecimal integer, e.g. `0x0002_0006` -/
  | hex (d : Nat) (ds : List (Bool × Nat)) :
      d < 16 → (∀ p ∈ ds, p.2 < 16) → digitsValue 16 (d :: ds.map (·.2)) < 2 ^ 63 →
      Spells (.lit (.int (digitsValue 16 (d :: ds.map (·.2)))))
        ('0' :: 'x' :: digitChar d :: groupText ds)
  /-- decimal fraction, e.g. `03.001` or `123.` -/
  | num (d : Nat) (ds fs : List Nat) :
      d < 10 → (∀ e ∈ ds, e < 10) → (∀ e ∈ fs, e < 10) →
      Spells (.lit (.num (String.ofList (digitChar d :: (ds.map digitChar ++ '.' :: fs.map digitChar)))))
        (digitChar d :: (ds.map digitChar ++ '.' :: fs.map digitChar))
  /-- any other character that is not white space, a quote or a slash -/
  | sym (c : Char) : ¬ IsLetter c → ¬ IsDigit c → c ≠ '"' → c ≠ ' ' → c ≠ '\n' → c ≠ '\r' → c ≠ '/' →
      Spells (.sym c) [c]

/-- `Stops t rest`: text `rest` cannot be taken for a continuation of token `t`. -/
def Stops (t : Token) (rest : List Char) : Prop :=
  match rest with
  | [] => True
  | c :: _ =>
    match t with
    | .sym _ => True
    | .lit (.str _) => True
    | .lit (.int _) => ¬ IsHexDigit c ∧ c ≠ '_' ∧ c ≠ '.' ∧ c ≠ 'x'
    | .lit (.num _) => ¬ IsDigit c ∧ c ≠ '_'
    | _ => ¬ IsLetter c ∧ ¬ IsDigit c

instance (t : Token) (rest : List Char) : Decidable (Stops t rest) := by
  unfold Stops
  repeat' split
  all_goals infer_instance

/-- The bodies of block comments that the lexer closes at the following close mark: a first character
that is not `/`, then single characters other than `*`, or `*` together with a following character
other than `/`. -/
inductive BlockTail : List Char → Prop
  | nil : BlockTail []
  | char (c : Char) (r : List Char) : c ≠ '*' → BlockTail r → BlockTail (c :: r)
  | star (c : Char) (r : List Char) : c ≠ '/' → BlockTail r → BlockTail ('*' :: c :: r)

/-- See `BlockTail`. -/
def BlockBody : List Char → Prop
  | [] => False
  | c :: r => c ≠ '/' ∧ BlockTail r

/-- `Sep x`: the characters `x` are white space and comments only. -/
inductive Sep : List Char → Prop
  | nil : Sep []
  | white (c : Char) (r : List Char) : c = ' ' ∨ c = '\n' ∨ c = '\r' → Sep r → Sep (c :: r)
  | line (body : List Char) (nl : Char) (r : List Char) :
      '\n' ∉ body → '\r' ∉ body → nl = '\n' ∨ nl = '\r' → Sep r →
      Sep ('/' :: '/' :: (body ++ nl :: r))
  | block (body r : List Char) : BlockBody body → Sep r →
      Sep ('/' :: '*' :: (body ++ '*' :: '/' :: r))

/-- `Layout ts x`: the source characters `x` are the tokens `ts`, each written in one of its
spellings, with separators before each token and after the last one; a separator may be empty where
the next characters cannot be taken for a continuation of the token. -/
inductive Layout : List Token → List Char → Prop
  | nil (s : List Char) : Sep s → Layout [] s
  | eofComment (s body : List Char) : Sep s → '\n' ∉ body → '\r' ∉ body →
      Layout [] (s ++ '/' :: '/' :: body)
  | cons (s x r : List Char) (t : Token) (ts : List Token) :
      Sep s → Spells t x → Stops t r → Layout ts r → Layout (t :: ts) (s ++ (x ++ r))

end TPB.Spec
namespace TPB.Spec

/-- What each word means as a token. -/
def keywordTable : List (String × Token) :=
  [("struct", .kwStruct), ("enum", .kwEnum), ("fn", .kwFn), ("read", .kwRead), ("async", .kwAsync),
   ("const", .kwConst), ("true", .lit (.bool true)), ("false", .lit (.bool false))]

/-- The token of a word: its keyword if it is in the table, otherwise the identifier. -/
def wordToken (w : String) : Token := (keywordTable.lookup w).getD (.id w)

/-- Prepend tokens to an outcome. -/
def prepend (ts : List Token) : Except Panic (List Token) → Except Panic (List Token)
  | .ok us => .ok (ts ++ us)
  | .error e => .error e

/-- All characters are ASCII. -/
def Ascii (s : String) : Prop := ∀ c ∈ s.toList, c.toNat < 128

instance (s : String) : Decidable (Ascii s) := by unfold Ascii; infer_instance

/-- The UTF-8 bytes of a text, each byte taken as the character with that number. -/
def latin1View (s : String) : String :=
  String.ofList ((s.toList.flatMap String.utf8EncodeChar).map (fun b => Char.ofNat b.toNat))

end TPB.Spec
