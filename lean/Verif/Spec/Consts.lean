/-
Specification of constants: which constants a schema declares, and which constants a Rust or Dart text
declares (by the reader of `Spec/Reader.lean`).
-/
import Verif.Spec.Reader
import Verif.Spec.WellFormed
import Verif.Model.Writer
namespace TPB.Spec

/-! ### The constants of a schema -/

/-- A constant: the names of the blocks it is in, outermost first, its name, type and value. -/
structure SchemaConst where
  path : List String
  name : String
  type : TypeId
  value : Literal

mutual
/-- The constants of one member of a block. -/
def itemConsts (path : List String) : ConstItem → List SchemaConst
  | .value name t v => [⟨path, name, t, v.literal⟩]
  | .node name items => itemsConsts (path ++ [name]) items
/-- The constants of the members of a block, in order. -/
def itemsConsts (path : List String) : List ConstItem → List SchemaConst
  | [] => []
  | i :: is => itemConsts path i ++ itemsConsts path is
end

/-- The constants of a declaration. -/
def declConsts : ASTNode → List SchemaConst
  | .const n => itemsConsts [n.id] n.items
  | _ => []

/-- All constants of a schema, in source order. -/
def schemaConsts (S : List ASTNode) : List SchemaConst := S.flatMap declConsts

mutual
/-- The blocks in one member of a block, as paths of names, outermost first. -/
def itemBlocks (path : List String) : ConstItem → List (List String)
  | .value _ _ _ => []
  | .node name items => (path ++ [name]) :: itemsBlocks (path ++ [name]) items
def itemsBlocks (path : List String) : List ConstItem → List (List String)
  | [] => []
  | i :: is => itemBlocks path i ++ itemsBlocks path is
end

/-- The blocks of a declaration. -/
def declBlocks : ASTNode → List (List String)
  | .const n => itemBlocks [] (.node n.id n.items)
  | _ => []

/-- All constant blocks of a schema, in source order. -/
def schemaBlocks (S : List ASTNode) : List (List String) := S.flatMap declBlocks

/-- Two literals denote the same value; `num` gives the value of a decimal fraction. -/
def SameValue {V : Type} (num : String → V) : Literal → Literal → Prop
  | .num a, .num b => num a = num b
  | a, b => a = b

/-! ### The constants of a Rust text -/

/-- A Rust constant: the modules it is in, its name, the pieces of its type, the pieces of the
constructor its literal is wrapped in, if any, and the literal. -/
structure RustConst where
  path : List String
  name : String
  type : List Tok
  ctor : Option (List Tok)
  value : Literal

/-- `LITERAL` or `constructor(LITERAL)`. -/
def readRustValue (ts : List Tok) : Option (Option (List Tok) × Literal) :=
  match readLit rustString ts with
  | some l => some (none, l)
  | none =>
    match ts.dropWhile (· ≠ .sym '(') with
    | _ :: r =>
      if r.getLast? = some (.sym ')') then
        (readLit rustString r.dropLast).map (fun l => (some (ts.takeWhile (· ≠ .sym '(')), l))
      else none
    | [] => none

/-- `pub const NAME: TYPE = VALUE`. -/
def readRustConst (path : List String) : List Tok → Option RustConst
  | .word p :: .word c :: .word name :: .sym col :: ts =>
    if p = "pub" ∧ c = "const" ∧ col = ':' then
      match ts.dropWhile (· ≠ .sym '=') with
      | _ :: v => (readRustValue v).map (fun r => ⟨path, name, ts.takeWhile (· ≠ .sym '='), r.1, r.2⟩)
      | [] => none
    else none
  | _ => none

/-- `pub mod NAME`. -/
def readRustMod : List Tok → Option String
  | [.word p, .word m, .word name] => if p = "pub" ∧ m = "mod" then some name else none
  | _ => none

/-- The constants declared by statements standing in the modules `path`; every module must be closed
and nothing else may stand there. -/
def readRustFrom : List String → List Stmt → Option (List RustConst)
  | path, [] => if path = [] then some [] else none
  | path, (ts, e) :: rest =>
    if e = '{' then
      match readRustMod ts with
      | some name => readRustFrom (path ++ [name]) rest
      | none => none
    else if e = '}' then
      if ts = [] ∧ path ≠ [] then readRustFrom path.dropLast rest else none
    else
      match readRustConst path ts with
      | some c => (c :: ·) <$> readRustFrom path rest
      | none => none

/-- The constants declared by a Rust text. -/
def readRust (text : String) : Option (List RustConst) := (stmts text).bind (readRustFrom [])

/-! ### What the Rust constants should be -/

/-- Pieces separated by commas. -/
def joinToks : List (List Tok) → List Tok
  | [] => []
  | [t] => t
  | t :: u :: r => t ++ .sym ',' :: joinToks (u :: r)

/-- A type written as in the schema. -/
def typeToks : TypeId → List Tok
  | .integer id _ _ => [.word id]
  | .number id _ => [.word id]
  | .bool id => [.word id]
  | .char id => [.word id]
  | .other id => [.word id]
  | .generic id as => .word id :: .sym '<' :: (joinToks (as.map typeToks) ++ [.sym '>'])

/-- A name of the runtime library. -/
def runtimeToks (name : String) : List Tok :=
  [.word "tech_paws_runtime", .sym ':', .sym ':', .word name]

/-- The address types of the runtime library. -/
def isAddress : TypeId → Option String
  | .other id => if id = "GroupAddress" ∨ id = "CommandsBufferAddress" then some id else none
  | _ => none

/-- The Rust constant for a constant of the schema: same modules, name, type and value; addresses are
values of the runtime library's types. -/
def SchemaConst.rust (c : SchemaConst) : RustConst :=
  match isAddress c.type with
  | some a => ⟨c.path, c.name, runtimeToks a, some (runtimeToks a), c.value⟩
  | none => ⟨c.path, c.name, typeToks c.type, none, c.value⟩

/-! ### The constants of a Dart text -/

/-- Members of a class of constants: `final TYPE NAME = LITERAL` or `final NAME = const CLASS()`. -/
inductive DartMember where
  | value (name : String) (type : List Tok) (value : Literal)
  | child (name : String) (cls : String)

/-- A class of constants and its members. -/
structure DartClass where
  name : String
  members : List DartMember

/-- A Dart text: constants of the library (`const NAME = CLASS()`), and classes. -/
structure DartLibrary where
  vars : List (String × String)
  classes : List DartClass

/-- `const CLASS()`. -/
def readDartNew : List Tok → Option String
  | [.word c, .word cls, .sym l, .sym r] => if c = "const" ∧ l = '(' ∧ r = ')' then some cls else none
  | _ => none

/-- A member of a class. -/
def readDartMember : List Tok → Option DartMember
  | .word f :: ts =>
    if f = "final" then
      match ts.dropWhile (· ≠ .sym '='), (ts.takeWhile (· ≠ .sym '=')).getLast? with
      | _ :: v, some (.word name) =>
        if (ts.takeWhile (· ≠ .sym '=')).dropLast = [] then (readDartNew v).map (.child name)
        else (readLit dartString v).map (.value name (ts.takeWhile (· ≠ .sym '=')).dropLast)
      | _, _ => none
    else none
  | _ => none

/-- `const NAME = CLASS()`. -/
def readDartVar : List Tok → Option (String × String)
  | [.word c, .word name, .sym e, .word cls, .sym l, .sym r] =>
    if c = "const" ∧ e = '=' ∧ l = '(' ∧ r = ')' then some (name, cls) else none
  | _ => none

/-- `class NAME`. -/
def readDartClass : List Tok → Option String
  | [.word c, .word name] => if c = "class" then some name else none
  | _ => none

/-- A class that is being read: its name and the members read so far; a library outside classes. -/
def readDartFrom : Option DartClass → List Stmt → Option DartLibrary
  | none, [] => some ⟨[], []⟩
  | some _, [] => none
  | none, (ts, e) :: rest =>
    if e = '{' then
      match readDartClass ts with
      | some name => readDartFrom (some ⟨name, []⟩) rest
      | none => none
    else if e = ';' then
      match readDartVar ts with
      | some v => (fun lib => ⟨v :: lib.vars, lib.classes⟩) <$> readDartFrom none rest
      | none => none
    else none
  | some c, (ts, e) :: rest =>
    if e = '}' then
      if ts = [] then (fun lib => ⟨lib.vars, c :: lib.classes⟩) <$> readDartFrom none rest else none
    else if e = ';' then
      if ts = [.word "const", .word c.name, .sym '(', .sym ')'] ∧ c.members = [] then
        readDartFrom (some c) rest
      else
        match readDartMember ts with
        | some m => readDartFrom (some ⟨c.name, c.members ++ [m]⟩) rest
        | none => none
    else none

/-- What a Dart text declares. -/
def readDart (text : String) : Option DartLibrary := (stmts text).bind (readDartFrom none)

def DartMember.name : DartMember → String
  | .value n _ _ => n
  | .child n _ => n

/-- The member of a class with a given name. -/
def DartClass.member (c : DartClass) (n : String) : Option DartMember := c.members.find? (·.name = n)

/-- The class with a given name. -/
def DartLibrary.cls (L : DartLibrary) (n : String) : Option DartClass := L.classes.find? (·.name = n)

/-- The value of `.a.b.c` on an object of a class. -/
def DartLibrary.get (L : DartLibrary) (cls : String) : List String → Option Literal
  | [] => none
  | n :: ns =>
    match (L.cls cls).bind (·.member n) with
    | some (.value _ _ v) => if ns = [] then some v else none
    | some (.child _ c) => L.get c ns
    | none => none

/-- The value of the Dart expression `a.b.c`. -/
def DartLibrary.eval (L : DartLibrary) : List String → Option Literal
  | [] => none
  | n :: ns =>
    match L.vars.find? (·.1 = n) with
    | some v => L.get v.2 ns
    | none => none

/-- No name is declared twice: no two library constants, no two classes, no two members of a class. -/
def DartLibrary.Distinct (L : DartLibrary) : Prop :=
  (L.vars.map (·.1)).Nodup ∧ (L.classes.map (·.name)).Nodup ∧ ∀ c ∈ L.classes, (c.members.map (·.name)).Nodup

/-! ### Printed numbers -/

/-- The text of a decimal number, with or without a fraction. -/
def IsNumText (s : String) : Prop := IsDecimal s.toList ∨ IsFraction s.toList

instance (s : String) : Decidable (IsNumText s) := by unfold IsNumText; infer_instance

/-- Literals whose printed form is read back: text without quotes and backslashes; the external
printing of floating-point numbers must produce decimal numbers. -/
def Printable (x : Ext) : Literal → Prop
  | .str s => '"' ∉ s.toList ∧ '\\' ∉ s.toList
  | .num t => IsNumText (x.fmtF64 t)
  | _ => True

/-- The literal as it is printed: a number is replaced by its printed text, which is an integer literal
if it has no fraction. -/
def printed (x : Ext) : Literal → Literal
  | .num t => if IsDecimal (x.fmtF64 t).toList then .int (decimal (x.fmtF64 t).toList) else .num (x.fmtF64 t)
  | l => l

/-- The constants as the Rust text should declare them, numbers in their printed form. -/
def SchemaConst.asPrinted (x : Ext) (c : SchemaConst) : SchemaConst := { c with value := printed x c.value }

/-! ### Schemas whose constants can be printed -/

/-- Names of types and type arguments are identifiers. -/
inductive NamedType : TypeId → Prop
  | integer (id : String) (n : Nat) (s : Bool) : IsIdent id.toList → NamedType (.integer id n s)
  | number (id : String) (n : Nat) : IsIdent id.toList → NamedType (.number id n)
  | bool (id : String) : IsIdent id.toList → NamedType (.bool id)
  | char (id : String) : IsIdent id.toList → NamedType (.char id)
  | other (id : String) : IsIdent id.toList → NamedType (.other id)
  | generic (id : String) (as : List TypeId) : IsIdent id.toList → (∀ a ∈ as, NamedType a) →
      NamedType (.generic id as)

/-- Letters, digits and underscores only. -/
def Wordy (s : String) : Prop := ∀ c ∈ s.toList, IsLetter c ∨ IsDigit c

instance (s : String) : Decidable (Wordy s) := by unfold Wordy; infer_instance

/-- Members of blocks whose names are identifiers and whose literals are read back. -/
inductive PrintableItem (x : Ext) : ConstItem → Prop
  | value (n : String) (t : TypeId) (v : ConstValue) : IsIdent n.toList → NamedType t → Printable x v.literal →
      PrintableItem x (.value n t v)
  | node (n : String) (is : List ConstItem) : IsIdent n.toList → (∀ i ∈ is, PrintableItem x i) →
      PrintableItem x (.node n is)

/-- A schema whose constants are read back. -/
def PrintableDecl (x : Ext) : ASTNode → Prop
  | .const n => IsIdent n.id.toList ∧ ∀ i ∈ n.items, PrintableItem x i
  | _ => True

/-! ### What the Dart constants should be -/

/-- A type written in Dart. -/
def dartTypeToks : TypeId → List Tok
  | .integer _ _ _ => [.word "int"]
  | .number _ _ => [.word "double"]
  | .bool _ => [.word "bool"]
  | .char _ => [.word "int"]
  | .other id => [.word id]
  | .generic id as =>
    .word (if id = "Vec" then "List" else id) :: .sym '<' :: (joinToks (as.map dartTypeToks) ++ [.sym '>'])

/-- The Dart type of a constant; addresses are integers. -/
def dartConstType (t : TypeId) : List Tok :=
  match isAddress t with
  | some _ => [.word "int"]
  | none => dartTypeToks t

/-- The member of the class `_pre` for a member of a block. -/
def dartMember (x : Ext) (pre : String) : ConstItem → DartMember
  | .value n t v => .value (x.camel n) (dartConstType t) (printed x v.literal)
  | .node n _ => .child (x.camel n) ("_" ++ (pre ++ x.pascal n))

mutual
/-- The class of a block, which is in a block whose class is called `_pre`, followed by the classes of
the blocks in it. -/
def dartBlock (x : Ext) (pre : String) : ConstItem → List DartClass
  | .value _ _ _ => []
  | .node n is => ⟨"_" ++ (pre ++ x.pascal n), is.map (dartMember x (pre ++ x.pascal n))⟩
      :: dartBlocks x (pre ++ x.pascal n) is
def dartBlocks (x : Ext) (pre : String) : List ConstItem → List DartClass
  | [] => []
  | i :: is => dartBlock x pre i ++ dartBlocks x pre is
end

/-- The library for the constants of a schema: a variable for every outermost block, a class for every
block, with the members in source order. -/
def dartConsts (x : Ext) (S : List ASTNode) : DartLibrary :=
  ⟨S.flatMap (fun | .const n => [(x.camel n.id, "_" ++ x.pascal n.id)] | _ => []),
   S.flatMap (fun | .const n => dartBlock x "" (.node n.id n.items) | _ => [])⟩

/-- An upper-case letter followed by other characters. -/
def IsCapWord (cs : List Char) : Prop := ∃ c r, cs = c :: r ∧ c.isUpper = true ∧ ∀ d ∈ r, d.isUpper = false

end TPB.Spec
