/-
Specification of constants in Kotlin and Swift: which objects (structs) and constants a text declares, by
a reader of text line by line that does not know the generators; how the two languages write types and
strings; which constants their compilers accept.
-/
import Verif.Spec.Consts
import Verif.Spec.Mobile
namespace TPB.Spec

/-! ### Lines -/

def linesFrom : List Tok → List Tok → List (List Tok)
  | acc, [] => if acc = [] then [] else [acc]
  | acc, t :: ts =>
    if t = .sym '\n' then
      if acc = [] then linesFrom [] ts else acc :: linesFrom [] ts
    else linesFrom (acc ++ [t]) ts

/-- The lines of a text, as pieces, without empty lines. -/
def textLines (text : String) : Option (List (List Tok)) := (scan text).map (linesFrom [])

/-! ### Literals -/

/-- Digits and points at the beginning of a word, and the letters after them. -/
def numPart (w : String) : List Char := w.toList.takeWhile (fun c => decide (IsDigit c) || c == '.')
def numSuffix (w : String) : String := String.ofList (w.toList.dropWhile (fun c => decide (IsDigit c) || c == '.'))

/-- A literal and its suffix.  Kotlin language documentation, "Numbers" and "Unsigned integer types": `L`,
`U`, `UL` after an integer, `f` after an integer or a fraction. -/
def readMobileLit (str : String → Option String) : List Tok → Option (Literal × String)
  | [.word w] =>
    if numPart w = [] ∨ numSuffix w = "" then (wordLit w).map (fun l => (l, ""))
    else if numSuffix w = "f" then
      if IsDecimal (numPart w) ∨ IsFraction (numPart w) then some (.num (String.ofList (numPart w)), "f") else none
    else if numSuffix w ∈ ["L", "U", "UL"] then
      if IsDecimal (numPart w) then some (.int (decimal (numPart w)), numSuffix w) else none
    else none
  | [.str raw] => (str raw).map (fun s => (.str s, ""))
  | _ => none

/-- Where a reader of a Kotlin string is: in plain text, after a `$`, after a backslash, in a `\uXXXX`. -/
inductive KStrState where
  | plain | dollar | esc | hex (n : Nat) (ds : List Char)
  deriving DecidableEq

/-- After a `$`, these begin a template: letters (any character beyond ASCII is taken for one),
underscore, back quote, brace. -/
def beginsTemplate (c : Char) : Bool := decide (IsLetter c) || c == '_' || c == '`' || c == '{' || decide (127 < c.toNat)

/-- Kotlin (grammar, "Strings"): a line string has no line break; a `$` that does not begin a template
stands for itself. -/
def kotlinStep : KStrState → Char → Option (List Char × KStrState)
  | .plain, c => plain c
  | .dollar, c => if beginsTemplate c then none else plain c
  | .esc, c =>
    if c = 'n' then some (['\n'], .plain)
    else if c = 'r' then some (['\r'], .plain)
    else if c = 't' then some (['\t'], .plain)
    else if c = 'b' then some ([Char.ofNat 8], .plain)
    else if c = '\\' ∨ c = '"' ∨ c = '\'' ∨ c = '$' then some ([c], .plain)
    else if c = 'u' then some ([], .hex 4 [])
    else none
  | .hex n ds, c =>
    if !isHexDigit c then none
    else if n ≤ 1 then
      if (hexValue (ds ++ [c])).isValidChar then some ([Char.ofNat (hexValue (ds ++ [c]))], .plain) else none
    else some ([], .hex (n - 1) (ds ++ [c]))
where
  plain (c : Char) : Option (List Char × KStrState) :=
    if c = '\\' then some ([], .esc)
    else if c = '$' then some (['$'], .dollar)
    else if c = '\n' ∨ c = '\r' ∨ c = '"' then none
    else some ([c], .plain)

/-- A `$` that begins a template. -/
def HasTemplate (s : String) : Prop := ∃ a c b, s.toList = a ++ '$' :: c :: b ∧ beginsTemplate c = true

/-- What the raw text of a Kotlin string literal denotes; `none` if it is not a constant text. -/
def kotlinString (raw : String) : Option String :=
  (decodeWith kotlinStep (fun s => s = .plain || s = .dollar) .plain raw.toList).map String.ofList

/-- Swift (The Swift Programming Language, "String Literals"): a single-line literal has no line break;
`\(` begins an interpolation, so that the literal is not a constant text. -/
def swiftStep : DecState → Char → Option (List Char × DecState)
  | .plain, c =>
    if c = '\\' then some ([], .esc)
    else if c = '\n' ∨ c = '\r' ∨ c = '"' then none
    else some ([c], .plain)
  | .esc, c =>
    if c = 'n' then some (['\n'], .plain)
    else if c = 'r' then some (['\r'], .plain)
    else if c = 't' then some (['\t'], .plain)
    else if c = '0' then some ([Char.ofNat 0], .plain)
    else if c = '\\' ∨ c = '"' ∨ c = '\'' then some ([c], .plain)
    else if c = 'u' then some ([], .uOpen)
    else none
  | .uOpen, c => if c = '{' then some ([], .uni []) else none
  | .uni ds, c =>
    if c = '}' then
      if ds = [] ∨ 8 < ds.length then none else codePoint (hexValue ds)
    else if isHexDigit c then some ([], .uni (ds ++ [c]))
    else none
  | _, _ => none

/-- What the raw text of a Swift string literal denotes; `none` if it is not a constant text. -/
def swiftString (raw : String) : Option String :=
  (decodeWith swiftStep (fun s => s = .plain) .plain raw.toList).map String.ofList

/-! ### Declarations -/

/-- A constant: the objects it is in, outermost first, its name, the pieces of its type, its literal and
the suffix of the literal. -/
structure MobileConst where
  path : List String
  name : String
  type : List Tok
  value : Literal
  suffix : String

/-- What a line declares: an object, given by the names of the objects it is in and its own, or a
constant. -/
inductive MobileDecl where
  | block (path : List String)
  | const (c : MobileConst)

/-- What matters of a language: the head of an object (its name, and whether a brace opens it), the two
words before the name of a constant, and its strings. -/
structure MobileLang where
  head : List Tok → Option (String × Bool)
  modifier : String
  keyword : String
  str : String → Option String

/-- `object NAME {`, or `object NAME` for an empty object. -/
def kotlinHead : List Tok → Option (String × Bool)
  | [.word k, .word n] => if k = "object" then some (n, false) else none
  | [.word k, .word n, .sym c] => if k = "object" ∧ c = '{' then some (n, true) else none
  | _ => none

/-- `struct NAME {`. -/
def swiftHead : List Tok → Option (String × Bool)
  | [.word k, .word n, .sym c] => if k = "struct" ∧ c = '{' then some (n, true) else none
  | _ => none

/-- `const val NAME: TYPE = LITERAL`. -/
def kotlinLang : MobileLang := ⟨kotlinHead, "const", "val", kotlinString⟩

/-- `static let NAME: TYPE = LITERAL`. -/
def swiftLang : MobileLang := ⟨swiftHead, "static", "let", swiftString⟩

/-- The constant that a line declares. -/
def readMobileConst (L : MobileLang) (path : List String) : List Tok → Option MobileConst
  | .word m :: .word k :: .word name :: .sym col :: ts =>
    if m = L.modifier ∧ k = L.keyword ∧ col = ':' then
      match ts.dropWhile (· ≠ .sym '=') with
      | _ :: v => (readMobileLit L.str v).map (fun r => ⟨path, name, ts.takeWhile (· ≠ .sym '='), r.1, r.2⟩)
      | [] => none
    else none
  | _ => none

/-- What lines standing in the objects `path` declare; every object must be closed and nothing else may
stand there. -/
def readMobileFrom (L : MobileLang) : List String → List (List Tok) → Option (List MobileDecl)
  | path, [] => if path = [] then some [] else none
  | path, l :: ls =>
    if l = [.sym '}'] then
      if path ≠ [] then readMobileFrom L path.dropLast ls else none
    else
      match L.head l with
      | some (name, true) => (.block (path ++ [name]) :: ·) <$> readMobileFrom L (path ++ [name]) ls
      | some (name, false) => (.block (path ++ [name]) :: ·) <$> readMobileFrom L path ls
      | none =>
        match readMobileConst L path l with
        | some c => (.const c :: ·) <$> readMobileFrom L path ls
        | none => none

/-- What a text declares. -/
def readMobile (L : MobileLang) (text : String) : Option (List MobileDecl) :=
  (textLines text).bind (readMobileFrom L [])

/-- The constants among declarations. -/
def constsOf (ds : List MobileDecl) : List MobileConst :=
  ds.filterMap (fun | .const c => some c | .block _ => none)

/-- The objects among declarations. -/
def blocksOf (ds : List MobileDecl) : List (List String) :=
  ds.filterMap (fun | .const _ => none | .block p => some p)

/-! ### Types -/

/-- A type written in Kotlin: built-in types by `kotlinNames`, addresses as unsigned 64-bit integers. -/
def kotlinTypeToks : TypeId → List Tok
  | .integer _ n s => [.word ((kotlinNames.lookup (.int (8 * n) s)).getD "")]
  | .number _ n => [.word ((kotlinNames.lookup (.float (8 * n))).getD "")]
  | .bool _ => [.word "Boolean"]
  | .char _ => [.word "Char"]
  | .other id => [.word (if id = "GroupAddress" ∨ id = "CommandsBufferAddress" then "ULong" else id)]
  | .generic id as =>
    .word (if id = "Vec" then "List" else id) :: .sym '<' :: (joinToks (as.map kotlinTypeToks) ++ [.sym '>'])

/-- A type written in Swift: built-in types by `swiftNames`, addresses as unsigned 64-bit integers.
`char` stands for the type of characters. -/
def swiftTypeToks (char : String) : TypeId → List Tok
  | .integer _ n s => [.word ((swiftNames.lookup (.int (8 * n) s)).getD "")]
  | .number _ n => [.word ((swiftNames.lookup (.float (8 * n))).getD "")]
  | .bool _ => [.word "Bool"]
  | .char _ => [.word char]
  | .other id => [.word (if id = "GroupAddress" ∨ id = "CommandsBufferAddress" then "UInt64" else id)]
  | .generic id as =>
    if id = "Vec" then .sym '[' :: (joinToks (as.map (swiftTypeToks char)) ++ [.sym ']'])
    else .word id :: .sym '<' :: (joinToks (as.map (swiftTypeToks char)) ++ [.sym '>'])

/-! ### What the compilers accept -/

/-- Hard keywords (Kotlin grammar). -/
def kotlinReserved : List String :=
  ["as", "break", "class", "continue", "do", "else", "false", "for", "fun", "if", "in", "interface", "is", "null",
   "object", "package", "return", "super", "this", "throw", "true", "try", "typealias", "typeof", "val", "var", "when",
   "while"]

/-- A name in Kotlin: no keyword, and not underscores only. -/
def KotlinName (n : String) : Prop := n ∉ kotlinReserved ∧ ∃ c ∈ n.toList, c ≠ '_'

/-- Keywords reserved in declarations, statements, expressions and types (The Swift Programming Language,
"Keywords and Punctuation"). -/
def swiftReserved : List String :=
  ["associatedtype", "class", "deinit", "enum", "extension", "fileprivate", "func", "import", "init", "inout",
   "internal", "let", "operator", "private", "precedencegroup", "protocol", "public", "rethrows", "static", "struct",
   "subscript", "typealias", "var", "break", "case", "catch", "continue", "default", "defer", "do", "else",
   "fallthrough", "for", "guard", "if", "in", "repeat", "return", "throw", "switch", "where", "while", "Any", "as",
   "false", "is", "nil", "self", "Self", "super", "throws", "true", "try", "_"]

def SwiftName (n : String) : Prop := n ∉ swiftReserved

instance (n : String) : Decidable (KotlinName n) := by unfold KotlinName; infer_instance
instance (n : String) : Decidable (SwiftName n) := by unfold SwiftName; infer_instance

/-- Integer types of Kotlin with the suffixes of their literals and the number of bits of the largest. -/
def kotlinIntegers : List ((String × String) × Nat) :=
  [(("Byte", ""), 7), (("Short", ""), 15), (("Int", ""), 31), (("Long", ""), 63), (("Long", "L"), 63),
   (("UByte", "U"), 8), (("UShort", "U"), 16), (("UInt", "U"), 32), (("ULong", "U"), 64), (("ULong", "UL"), 64)]

/-- A literal with a suffix is a constant of a Kotlin type that is a single name. -/
def KotlinLitOk (T suffix : String) : Literal → Prop
  | .int v => ∃ bits, kotlinIntegers.lookup (T, suffix) = some bits ∧ 0 ≤ v ∧ v < 2 ^ bits
  | .num _ => (T = "Float" ∧ suffix = "f") ∨ (T = "Double" ∧ suffix = "")
  | .bool _ => T = "Boolean"
  | .str _ => T = "String"

/-- Integer types of Swift with the number of bits of the largest value. -/
def swiftIntegers : List (String × Nat) :=
  [("Int8", 7), ("Int16", 15), ("Int32", 31), ("Int64", 63), ("UInt8", 8), ("UInt16", 16), ("UInt32", 32),
   ("UInt64", 64)]

/-- A literal with a suffix is accepted as a value of a Swift type that is a single name: Swift has no
suffixes, and an integer literal is accepted as a floating-point number. -/
def SwiftLitOk (T suffix : String) : Literal → Prop
  | .int v => suffix = "" ∧ ((∃ bits, swiftIntegers.lookup T = some bits ∧ 0 ≤ v ∧ v < 2 ^ bits) ∨ T = "Float" ∨ T = "Double")
  | .num _ => suffix = "" ∧ (T = "Float" ∨ T = "Double")
  | .bool _ => T = "Bool"
  | .str _ => T = "String"

/-- `p` is declared in an object that encloses or is the object `q`, with the name `n`: in `q`, the name
`n` means (at the nearest) such an object and not a type of the library. -/
def Hides (blocks : List (List String)) (q : List String) (n : String) : Prop :=
  ∃ p ∈ blocks, ∃ k, p = q.take k ++ [n]

/-- The declarations of a file of constants are accepted. -/
structure MobileTyped (Name : String → Prop) (inner : String → Prop) (LitOk : String → String → Literal → Prop)
    (ds : List MobileDecl) : Prop where
  /-- no name is declared twice in an object; constants and objects share the names -/
  distinct : (ds.map (fun | .const c => c.path ++ [c.name] | .block p => p)).Nodup
  names : ∀ c ∈ constsOf ds, Name c.name
  blockNames : ∀ p ∈ blocksOf ds, ∀ n ∈ p.getLast?, Name n
  /-- names that an object in another object may have -/
  innerNames : ∀ p ∈ blocksOf ds, 2 ≤ p.length → ∀ n ∈ p.getLast?, inner n
  values : ∀ c ∈ constsOf ds, ∃ T, c.type = [.word T] ∧ LitOk T c.suffix c.value ∧ ¬ Hides (blocksOf ds) c.path T

/-- What the Kotlin compiler accepts. -/
def KotlinTyped : List MobileDecl → Prop := MobileTyped KotlinName (fun _ => True) KotlinLitOk

/-- What the Swift compiler accepts; a type in a type may not be called `Type` or `Protocol`. -/
def SwiftTyped : List MobileDecl → Prop := MobileTyped SwiftName (fun n => n ≠ "Type" ∧ n ≠ "Protocol") SwiftLitOk

/-! ### Schemas -/

mutual
/-- What a text should declare for one member of a block: `block` is the change of case of names of blocks
and `const` gives the constant for a constant of the schema. -/
def itemDecls (block : String → String) (const : SchemaConst → MobileConst) (path : List String) :
    ConstItem → List MobileDecl
  | .value n t v => [.const (const ⟨path, n, t, v.literal⟩)]
  | .node n is => .block ((path ++ [n]).map block) :: itemsDecls block const (path ++ [n]) is
def itemsDecls (block : String → String) (const : SchemaConst → MobileConst) (path : List String) :
    List ConstItem → List MobileDecl
  | [] => []
  | i :: is => itemDecls block const path i ++ itemsDecls block const path is
end

/-- What a text should declare for a schema, in source order. -/
def schemaDecls (block : String → String) (const : SchemaConst → MobileConst) (S : List ASTNode) : List MobileDecl :=
  S.flatMap (fun | .const n => itemDecls block const [] (.node n.id n.items) | _ => [])

/-- Numbers print as decimal digits if they are whole and as decimal fractions if not. -/
def PrintsNumber (x : Bool) (s : String) : Prop := if x then IsDecimal s.toList else IsFraction s.toList

/-- What a schema must be like for its constants to be accepted: `block` and `name` change the case of names
of blocks and constants, `Suits` says which literals a type has, `type` writes a type. -/
structure ConstsFit (Name inner : String → Prop) (Suits : TypeId → Literal → Prop) (type : TypeId → List Tok)
    (block name : String → String) (S : List ASTNode) : Prop where
  /-- no two blocks, two constants, or a block and a constant of a block have the same name -/
  distinct : ((schemaBlocks S).map (·.map block) ++
    (schemaConsts S).map (fun c => c.path.map block ++ [name c.name])).Nodup
  names : ∀ c ∈ schemaConsts S, Name (name c.name)
  blockNames : ∀ p ∈ schemaBlocks S, ∀ n ∈ p.getLast?, Name (block n)
  innerNames : ∀ p ∈ schemaBlocks S, 2 ≤ p.length → ∀ n ∈ p.getLast?, inner (block n)
  suits : ∀ c ∈ schemaConsts S, Suits c.type c.value
  /-- no block around a constant, or next to such a block, has the name of the type of the constant -/
  visible : ∀ c ∈ schemaConsts S, ∀ T, type c.type = [.word T] →
    ¬ Hides ((schemaBlocks S).map (·.map block)) (c.path.map block) T

/-- A literal suits the declared type of a constant in Kotlin. -/
def SuitsKotlin : TypeId → Literal → Prop
  | .integer _ size signed, .int v => v < 2 ^ (8 * size - if signed then 1 else 0)
  | .number _ _, .num _ => True
  | .bool _, .bool _ => True
  | .other n, .int _ => n = "GroupAddress" ∨ n = "CommandsBufferAddress"
  | .other n, .str _ => n = "String"
  | .other n, .bool _ => n = "Boolean"
  | _, _ => False

/-- A literal suits the declared type of a constant in Swift: no 32-bit floating-point numbers. -/
def SuitsSwift : TypeId → Literal → Prop
  | .integer _ size signed, .int v => v < 2 ^ (8 * size - if signed then 1 else 0)
  | .number _ size, .num _ => size = 8
  | .bool _, .bool _ => True
  | .other n, .int _ => n = "GroupAddress" ∨ n = "CommandsBufferAddress"
  | .other n, .str _ => n = "String"
  | .other n, .bool _ => n = "Bool"
  | _, _ => False

end TPB.Spec
