/-
Model of /repo/src/lexer.rs.

`StringReader` (lexer.rs 30-52) is a byte cursor over the source; `current()` is
`as_bytes()[cursor] as char`, i.e. the byte seen as a Latin-1 character.  The model
represents a reader by the list of characters not yet consumed (`data[cursor..]`):
`current()` is the head, `next()` drops the head.  Advancing past the end keeps `current()`
at `None`, as dropping from the empty list does.
-/
namespace TPB

/-- lexer.rs 15-21 `Literal`.  Simplification: an `f64` is kept as the decimal text it was
parsed from (`num`), since Lean's kernel has no `f64` parser; see `validF64`. -/
inductive Literal where
  | str (s : String)
  | int (v : Int)
  | num (text : String)
  | bool (b : Bool)
  deriving Repr, DecidableEq, Inhabited

/-- lexer.rs 1-13 `Token`. -/
inductive Token where
  | kwStruct | kwEnum | kwFn | kwRead | kwAsync | kwConst
  | id (name : String)
  | lit (l : Literal)
  | sym (c : Char)
  | eof
  deriving Repr, DecidableEq, Inhabited

/-- The ways the Rust program panics, plus `outOfFuel`, which exists only in the model and is
proved unreachable. -/
inductive Panic where
  /-- `lex_string` at end of input (lexer.rs 205, 222) -/
  | unterminatedString
  /-- `current().unwrap()` on `None` (lexer.rs 175, 209, 235) -/
  | unwrapNone
  /-- `from_str_radix(..).unwrap()` / `parse::<i64>().unwrap()` (lexer.rs 265, 270) -/
  | badInt (text : String)
  /-- `parse::<f64>().unwrap()` (lexer.rs 268) -/
  | badFloat (text : String)
  /-- `panic!("Expected ..., but got {:?}")` in parser.rs -/
  | unexpected (t : Token)
  /-- a generator's `panic!` / `unwrap` / `expect` -/
  | gen (msg : String)
  /-- model artefact -/
  | outOfFuel
  deriving Repr, DecidableEq, Inhabited

/-- lexer.rs 126-129 `is_char_number`. -/
def isCharNumber (ch : Char) : Bool := "0123456789".toList.contains ch

/-- lexer.rs 131-134 `is_char_hex_number`. -/
def isCharHexNumber (ch : Char) : Bool := "0123456789ABCDEF".toList.contains ch

/-- lexer.rs 136-145 `is_char_id`. -/
def isCharId (ch : Char) (firstChar : Bool) : Bool :=
  let letters := "abcdefjhigklmnopqrstuvwxyzABCDEFJHIGKLMNOPQRSTUVWXYZ_".toList
  let numbers := "0123456789".toList
  if firstChar then letters.contains ch else letters.contains ch || numbers.contains ch

/-- lexer.rs 147-156 `lex_single_line_comment`: result is the unread input. -/
def lexSingleLineComment : List Char → List Char
  | [] => []
  | ch :: cs => if ch = '\r' ∨ ch = '\n' then cs else lexSingleLineComment cs

/-- lexer.rs 158-169 `lex_multi_line_comment`.  When `*` is not followed by `/`, the reader has
already advanced once (line 161) and advances again (line 167), so the character after the `*`
is skipped without being looked at as a possible `*`. -/
def lexMultiLineComment : List Char → List Char
  | [] => []
  | [_] => []
  | ch :: d :: ds =>
    if ch = '*' then
      if d = '/' then ds else lexMultiLineComment ds
    else lexMultiLineComment (d :: ds)

/-- lexer.rs 174-186, the loop of `lex_id`; `acc` is `name`. -/
def lexIdLoop (acc : List Char) : List Char → Except Panic (List Char × List Char)
  | [] => .error .unwrapNone
  | [c] => .ok (acc ++ [c], [])
  | c :: d :: ds =>
    if !isCharId d false then .ok (acc ++ [c], d :: ds) else lexIdLoop (acc ++ [c]) (d :: ds)

/-- lexer.rs 188-198, the keyword match of `lex_id`. -/
def classifyName (name : String) : Token :=
  if name = "struct" then .kwStruct
  else if name = "enum" then .kwEnum
  else if name = "fn" then .kwFn
  else if name = "read" then .kwRead
  else if name = "async" then .kwAsync
  else if name = "const" then .kwConst
  else if name = "true" then .lit (.bool true)
  else if name = "false" then .lit (.bool false)
  else .id name

/-- lexer.rs 171-199 `lex_id`. -/
def lexId (cs : List Char) : Except Panic (Token × List Char) :=
  match lexIdLoop [] cs with
  | .error e => .error e
  | .ok (name, rest) => .ok (classifyName (String.ofList name), rest)

/-- lexer.rs 208-224, the loop of `lex_string`; `acc` is `value`. -/
def lexStringLoop (acc : List Char) : List Char → Except Panic (List Char × List Char)
  | [] => .error .unwrapNone
  | [c] => if c = '"' then .ok (acc, []) else .error .unterminatedString
  | c :: d :: ds => if c = '"' then .ok (acc, d :: ds) else lexStringLoop (acc ++ [c]) (d :: ds)

/-- lexer.rs 201-227 `lex_string`; the reader is on the opening quote. -/
def lexString (cs : List Char) : Except Panic (Token × List Char) :=
  match cs.tail with
  | [] => .error .unterminatedString
  | d :: ds =>
    match lexStringLoop [] (d :: ds) with
    | .error e => .error e
    | .ok (value, rest) => .ok (.lit (.str (String.ofList value)), rest)

/-- `char::to_digit` of the Rust standard library, for radix ≤ 16. -/
def toDigit (radix : Nat) (c : Char) : Option Nat :=
  let v : Option Nat :=
    if '0' ≤ c ∧ c ≤ '9' then some (c.toNat - '0'.toNat)
    else if 'a' ≤ c ∧ c ≤ 'f' then some (c.toNat - 'a'.toNat + 10)
    else if 'A' ≤ c ∧ c ≤ 'F' then some (c.toNat - 'A'.toNat + 10)
    else none
  match v with
  | some d => if d < radix then some d else none
  | none => none

/-- Value of a digit string, `none` on a non-digit. -/
def digitsVal (radix : Nat) : Nat → List Char → Option Nat
  | acc, [] => some acc
  | acc, c :: cs =>
    match toDigit radix c with
    | some d => digitsVal radix (acc * radix + d) cs
    | none => none

/-- `i64::from_str_radix` / `str::parse::<i64>` of the Rust standard library: optional sign, at
least one digit, `none` (an `Err`) on a bad digit or when the value does not fit in an `i64`. -/
def i64FromStr (radix : Nat) (cs : List Char) : Option Int :=
  let bounded (neg : Bool) (ds : List Char) : Option Int :=
    match ds with
    | [] => none
    | _ :: _ =>
      match digitsVal radix 0 ds with
      | none => none
      | some v =>
        if neg then (if v ≤ 2 ^ 63 then some (-(v : Int)) else none)
        else (if v < 2 ^ 63 then some (v : Int) else none)
  match cs with
  | '-' :: ds => bounded true ds
  | '+' :: ds => bounded false ds
  | ds => bounded false ds

/-- `str::trim_start_matches("0x")`: strips the prefix as often as it occurs. -/
def trimStart0x : List Char → List Char
  | '0' :: 'x' :: cs => trimStart0x cs
  | cs => cs

/-- Which texts `str::parse::<f64>` of the Rust standard library accepts, restricted to texts that
start with a digit (the lexer produces no others): digits, optional `.` and digits, optional
exponent. -/
def validF64 (cs : List Char) : Bool :=
  let isD := fun c : Char => decide ('0' ≤ c) && decide (c ≤ '9')
  let intPart := cs.takeWhile isD
  let r1 := cs.dropWhile isD
  let r2 := match r1 with
    | '.' :: ds => ds.dropWhile isD
    | _ => r1
  let expOk := match r2 with
    | [] => true
    | e :: es =>
      if e = 'e' ∨ e = 'E' then
        let ds := match es with
          | '+' :: ds => ds
          | '-' :: ds => ds
          | ds => ds
        !ds.isEmpty && ds.all isD
      else false
  !intPart.isEmpty && expOk

/-- What `lex_number`'s loop (lexer.rs 231-261) computes: the collected text, the two flags and the
unread input. -/
structure NumScan where
  value : List Char
  isHex : Bool
  isFloat : Bool
  rest : List Char
  deriving Repr, DecidableEq

/-- lexer.rs 234-261, the loop of `lex_number`.  After `_` the next character is taken without being
checked (lines 240-243 then 235). -/
def lexNumberLoop (value : List Char) (isHex isFloat : Bool) : List Char → Except Panic NumScan
  | [] => .error .unwrapNone
  | [c] => .ok ⟨value ++ [c], isHex, isFloat, []⟩
  | c :: ch :: ds =>
    if ch = '_' then lexNumberLoop (value ++ [c]) isHex isFloat ds
    else if ch = '.' ∧ !isHex ∧ !isFloat then lexNumberLoop (value ++ [c]) isHex true (ch :: ds)
    else if ch = 'x' ∧ !isHex ∧ !isFloat then lexNumberLoop (value ++ [c]) true isFloat (ch :: ds)
    else if (!isHex && !isCharNumber ch) || (isHex && !isCharHexNumber ch) then
      .ok ⟨value ++ [c], isHex, isFloat, ch :: ds⟩
    else lexNumberLoop (value ++ [c]) isHex isFloat (ch :: ds)

/-- lexer.rs 263-271, conversion of the collected text. -/
def numberToken (s : NumScan) : Except Panic Token :=
  if s.isHex then
    match i64FromStr 16 (trimStart0x s.value) with
    | some v => .ok (.lit (.int v))
    | none => .error (.badInt (String.ofList s.value))
  else if s.isFloat then
    if validF64 s.value then .ok (.lit (.num (String.ofList s.value)))
    else .error (.badFloat (String.ofList s.value))
  else
    match i64FromStr 10 s.value with
    | some v => .ok (.lit (.int v))
    | none => .error (.badInt (String.ofList s.value))

/-- lexer.rs 229-272 `lex_number`. -/
def lexNumber (cs : List Char) : Except Panic (Token × List Char) :=
  match lexNumberLoop [] false false cs with
  | .error e => .error e
  | .ok s =>
    match numberToken s with
    | .error e => .error e
    | .ok t => .ok (t, s.rest)

/-- Put tokens in front of the tokens of the remaining input. -/
def consToks (ts : List Token) (r : Except Panic (List Token)) : Except Panic (List Token) :=
  match r with
  | .error e => .error e
  | .ok us => .ok (ts ++ us)

/-- lexer.rs 60-85, one iteration of the main loop of `tokenize` on current character `ch` and
following input `cs`; `k` is the rest of the loop.  Simplification: tokens are collected on the way
out instead of being pushed to a vector; a panic anywhere still yields an error as a whole. -/
def tokenizeStep (k : List Char → Except Panic (List Token)) (ch : Char) (cs : List Char) :
    Except Panic (List Token) :=
  if isCharId ch true then
    match lexId (ch :: cs) with
    | .error e => .error e
    | .ok (t, rest) => consToks [t] (k rest)
  else if ch = '"' then
    match lexString (ch :: cs) with
    | .error e => .error e
    | .ok (t, rest) => consToks [t] (k rest)
  else if isCharNumber ch then
    match lexNumber (ch :: cs) with
    | .error e => .error e
    | .ok (t, rest) => consToks [t] (k rest)
  else if ch = ' ' ∨ ch = '\n' ∨ ch = '\r' then k cs
  else if ch = '/' then
    match cs with
    | '/' :: ds => k (lexSingleLineComment ('/' :: ds))
    | '*' :: ds => k (lexMultiLineComment ('*' :: ds))
    | ds => consToks [.sym '/', .sym ch] (k ds.tail)
  else consToks [.sym ch] (k cs)

/-- lexer.rs 59-88, the main loop of `tokenize`. -/
def tokenizeLoop : Nat → List Char → Except Panic (List Token)
  | _, [] => .ok [.eof]
  | 0, _ :: _ => .error .outOfFuel
  | n + 1, ch :: cs => tokenizeStep (tokenizeLoop n) ch cs

/-- `as_bytes()[i] as char` (lexer.rs 47). -/
def byteToChar (b : UInt8) : Char := Char.ofNat b.toNat

/-- lexer.rs 55-95 `Lexer::tokenize` on the reader's characters. -/
def tokenizeChars (cs : List Char) : Except Panic (List Token) := tokenizeLoop cs.length cs

/-- lexer.rs 55-95 `Lexer::tokenize` on the source bytes. -/
def tokenizeBytes (bs : List UInt8) : Except Panic (List Token) :=
  tokenizeChars (bs.map byteToChar)

/-- lexer.rs 55 `Lexer::tokenize(data: &str)`: a Rust `&str` is its UTF-8 bytes. -/
def tokenize (data : String) : Except Panic (List Token) := tokenizeBytes data.toUTF8.data.toList

/-! ### The token cursor (lexer.rs 23-28, 97-123) -/

/-- lexer.rs 23-28 `Lexer`. -/
structure Lexer where
  cursor : Nat
  tokens : List Token
  registered : List Nat
  lastFn : Nat

/-- lexer.rs 89-94: the lexer returned by `tokenize`. -/
def Lexer.ofTokens (ts : List Token) : Lexer := ⟨0, ts, [], 0⟩

/-- lexer.rs 117-123 `current_token`; `tokens.last().unwrap()` cannot fail because `tokenize` always
pushes EOF, so the model uses EOF for an (impossible) empty vector. -/
def Lexer.currentToken (l : Lexer) : Token :=
  if l.tokens.length ≤ l.cursor then l.tokens.getLastD .eof
  else l.tokens.getD l.cursor .eof

/-- lexer.rs 112-115 `next_token`. -/
def Lexer.nextToken (l : Lexer) : Lexer := { l with cursor := l.cursor + 1 }

/-- lexer.rs 102-107: skip registered positions.  At most `registered.length` steps are needed. -/
def skipRegistered (registered : List Nat) : Nat → Nat → Nat
  | 0, p => p
  | n + 1, p => if registered.contains p then skipRegistered registered n (p + 1) else p

/-- lexer.rs 97-110 `next_fn_poisition`.  Simplification: the `u32` counter is a `Nat`. -/
def Lexer.nextFnPosition (l : Lexer) : Nat × Lexer :=
  (l.lastFn, { l with lastFn := skipRegistered l.registered (l.registered.length + 1) (l.lastFn + 1) })

end TPB
