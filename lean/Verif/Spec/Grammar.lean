/-
Specification of the schema language as a grammar: relations between token sequences and the schema
they denote.  Written without reference to the parser's functions.

Every relation takes a flag `q`.  With `q = false` it is the intended grammar.  With `q = true` it
also contains the two extra productions that the implementation turns out to accept (marked
"lenient" below).
-/
import Verif.Model.Ast
namespace TPB.Spec

/-- The built-in type names, with width in bytes and signedness. -/
def builtinTypes : List (String × TypeId) :=
  [("i8", .integer "i8" 1 true), ("i32", .integer "i32" 4 true), ("i64", .integer "i64" 8 true),
   ("u8", .integer "u8" 1 false), ("u32", .integer "u32" 4 false), ("u64", .integer "u64" 8 false),
   ("f32", .number "f32" 4), ("f64", .number "f64" 8), ("char", .char "char"), ("bool", .bool "bool")]

/-- The type denoted by a plain name. -/
def typeOfName (n : String) : TypeId := (builtinTypes.lookup n).getD (.other n)

/-- What a token sequence of the type grammar denotes: a type, a comma separated list of type
arguments, or (lenient) a list of type arguments each followed by a comma. -/
inductive TypeKind where
  | type (t : TypeId)
  | args (as : List TypeId)
  | openArgs

/-- Type expressions. -/
inductive TypeG (q : Bool) : TypeKind → List Token → Prop
  /-- `name` -/
  | name (n : String) : TypeG q (.type (typeOfName n)) [.id n]
  /-- `name < args >` -/
  | generic (n : String) (as : List TypeId) (ts : List Token) : TypeG q (.args as) ts →
      TypeG q (.type (.generic n as)) (.id n :: .sym '<' :: (ts ++ [.sym '>']))
  /-- lenient: `name <` and any number of `type ,`, with no closing bracket; denotes plain `name` -/
  | openBracket (n : String) (ts : List Token) : q = true → TypeG q .openArgs ts →
      TypeG q (.type (typeOfName n)) (.id n :: .sym '<' :: ts)
  | argsOne (t : TypeId) (ts : List Token) : TypeG q (.type t) ts → TypeG q (.args [t]) ts
  | argsMore (t : TypeId) (ts : List Token) (as : List TypeId) (us : List Token) :
      TypeG q (.type t) ts → TypeG q (.args as) us → TypeG q (.args (t :: as)) (ts ++ .sym ',' :: us)
  | openNil : TypeG q .openArgs []
  | openMore (t : TypeId) (ts us : List Token) : TypeG q (.type t) ts → TypeG q .openArgs us →
      TypeG q .openArgs (ts ++ .sym ',' :: us)

/-- Comma separated items, numbered from `i`, with an optional trailing comma.  The last argument
tells whether the sequence is empty or ends in a comma. -/
inductive CommaList {α : Type} (P : Nat → List Token → α → Prop) :
    Nat → List Token → List α → Bool → Prop
  | nil (i : Nat) : CommaList P i [] [] true
  | last (i : Nat) (ts : List Token) (a : α) : P i ts a → CommaList P i ts [a] false
  | more (i : Nat) (ts us : List Token) (a : α) (as : List α) (e : Bool) : P i ts a →
      CommaList P (i + 1) us as e → CommaList P i (ts ++ .sym ',' :: us) (a :: as) e

/-- `#[v]`, denoting the position `v` (as an unsigned 32-bit number). -/
def positionTokens (v : Int) : List Token := [.sym '#', .sym '[', .lit (.int v), .sym ']']

/-- The position denoted by a written number. -/
def positionOf (v : Int) : Nat := (v % 4294967296).toNat

/-- `name : type`, the `i`-th field. -/
inductive FieldG (q : Bool) : Nat → List Token → StructField → Prop
  | mk (i : Nat) (n : String) (t : TypeId) (ts : List Token) : TypeG q (.type t) ts →
      FieldG q i (.id n :: .sym ':' :: ts) ⟨i, n, t⟩

/-- `#[v] name : type`. -/
inductive NumFieldG (q : Bool) : Nat → List Token → StructField → Prop
  | mk (i : Nat) (v : Int) (n : String) (t : TypeId) (ts : List Token) : TypeG q (.type t) ts →
      NumFieldG q i (positionTokens v ++ .id n :: .sym ':' :: ts) ⟨positionOf v, n, t⟩

/-- A list of fields: all unnumbered or all numbered. -/
inductive FieldsG (q : Bool) : List Token → List StructField → Prop
  | plain (ts fs e) : CommaList (FieldG q) 0 ts fs e → FieldsG q ts fs
  | numbered (ts fs e) : CommaList (NumFieldG q) 0 ts fs e → FieldsG q ts fs

/-- `type`, the `i`-th tuple component. -/
inductive TupG (q : Bool) : Nat → List Token → TupleField → Prop
  | mk (i : Nat) (t : TypeId) (ts : List Token) : TypeG q (.type t) ts → TupG q i ts ⟨i, t⟩

/-- `#[v] type`. -/
inductive NumTupG (q : Bool) : Nat → List Token → TupleField → Prop
  | mk (i : Nat) (v : Int) (t : TypeId) (ts : List Token) : TypeG q (.type t) ts →
      NumTupG q i (positionTokens v ++ ts) ⟨positionOf v, t⟩

/-- A list of tuple components: all unnumbered or all numbered. -/
inductive TupsG (q : Bool) : List Token → List TupleField → Prop
  | plain (ts fs e) : CommaList (TupG q) 0 ts fs e → TupsG q ts fs
  | numbered (ts fs e) : CommaList (NumTupG q) 0 ts fs e → TupsG q ts fs

/-- The variant `name`, `name ( components )` or `name { fields }` with position `p`. -/
inductive VariantG (q : Bool) (p : Nat) : List Token → EnumItem → Prop
  | empty (n : String) : VariantG q p [.id n] (.empty p n)
  | tuple (n : String) (ts : List Token) (fs : List TupleField) : TupsG q ts fs →
      VariantG q p (.id n :: .sym '(' :: (ts ++ [.sym ')'])) (.tuple p n fs)
  | struct (n : String) (ts : List Token) (fs : List StructField) : FieldsG q ts fs →
      VariantG q p (.id n :: .sym '{' :: (ts ++ [.sym '}'])) (.struct p n fs)

/-- A numbered variant `#[v] variant`. -/
inductive NumVariantG (q : Bool) : Nat → List Token → EnumItem → Prop
  | mk (i : Nat) (v : Int) (ts : List Token) (it : EnumItem) : VariantG q (positionOf v) ts it →
      NumVariantG q i (positionTokens v ++ ts) it

/-- A list of variants: all unnumbered or all numbered. -/
inductive VariantsG (q : Bool) : List Token → List EnumItem → Prop
  | plain (ts is e) : CommaList (VariantG q) 0 ts is e → VariantsG q ts is
  | numbered (ts is e) : CommaList (NumVariantG q) 0 ts is e → VariantsG q ts is

/-- `name : type`, a method argument. -/
inductive ArgG (q : Bool) : Nat → List Token → FnArg → Prop
  | mk (i : Nat) (n : String) (t : TypeId) (ts : List Token) : TypeG q (.type t) ts →
      ArgG q i (.id n :: .sym ':' :: ts) ⟨n, t⟩

/-- `;` or `-> type ;`. -/
inductive RetG (q : Bool) : List Token → Option TypeId → Prop
  | none : RetG q [.sym ';'] Option.none
  | some (t : TypeId) (ts : List Token) : TypeG q (.type t) ts →
      RetG q (.sym '-' :: .sym '>' :: (ts ++ [.sym ';'])) (Option.some t)

/-- The constant value denoted by a literal. -/
def constOf (l : Literal) : ConstValue :=
  ⟨l, match l with
    | .bool _ => .bool "bool"
    | .str _ => .other "String"
    | .int _ => .integer "i32" 4 true
    | .num _ => .number "f32" 4⟩

/-- Items of a constant block. -/
inductive ConstG (q : Bool) : List Token → List ConstItem → Prop
  | nil : ConstG q [] []
  /-- `name : type = literal ;` -/
  | value (n : String) (t : TypeId) (l : Literal) (ts us : List Token) (is : List ConstItem) :
      TypeG q (.type t) ts → ConstG q us is →
      ConstG q (.id n :: .sym ':' :: (ts ++ .sym '=' :: .lit l :: .sym ';' :: us))
        (.value n t (constOf l) :: is)
  /-- `const name { items }` -/
  | node (n : String) (ts us : List Token) (is js : List ConstItem) : ConstG q ts is → ConstG q us js →
      ConstG q (.kwConst :: .id n :: .sym '{' :: (ts ++ .sym '}' :: us)) (.node n is :: js)

/-- `name = literal`, an entry of a group directive. -/
inductive PairG : Nat → List Token → IdValuePair → Prop
  | mk (i : Nat) (n : String) (l : Literal) : PairG i [.id n, .sym '=', .lit l] ⟨n, constOf l⟩

/-- The token at the place of the closing parenthesis of a group directive. -/
inductive GroupEnd (q : Bool) (e : Bool) : Token → Prop
  | paren : GroupEnd q e (.sym ')')
  /-- lenient: any other token that does not continue the list -/
  | other (x : Token) : q = true → (e = false → x ≠ .sym ',') → (e = true → ∀ n, x ≠ .id n) →
      GroupEnd q e x

/-- The optional keyword `async`. -/
def asyncTokens : Bool → List Token
  | true => [.kwAsync]
  | false => []

/-- One declaration.  `k` is the number of methods declared before it, `k'` after it. -/
inductive DeclG (q : Bool) : Nat → List Token → ASTNode → Nat → Prop
  /-- `struct name ;` -/
  | unit (k : Nat) (n : String) :
      DeclG q k [.kwStruct, .id n, .sym ';'] (.struct ⟨n, [], true, true⟩) k
  /-- `struct name { fields }` with at least one field -/
  | struct (k : Nat) (n : String) (ts : List Token) (fs : List StructField) : FieldsG q ts fs → fs ≠ [] →
      DeclG q k (.kwStruct :: .id n :: .sym '{' :: (ts ++ [.sym '}'])) (.struct ⟨n, fs, true, true⟩) k
  /-- `enum name { variants }` with at least one variant -/
  | enum (k : Nat) (n : String) (ts : List Token) (is : List EnumItem) : VariantsG q ts is → is ≠ [] →
      DeclG q k (.kwEnum :: .id n :: .sym '{' :: (ts ++ [.sym '}'])) (.enum ⟨n, is⟩) k
  /-- `[async] fn name ( args ) return` -/
  | fn (k : Nat) (a : Bool) (n : String) (ts us : List Token) (as : List FnArg) (e : Bool)
      (r : Option TypeId) : CommaList (ArgG q) 0 ts as e → RetG q us r →
      DeclG q k (asyncTokens a ++ .kwFn :: .id n :: .sym '(' :: (ts ++ .sym ')' :: us))
        (.fn ⟨n, k, as, r, false, a⟩) (k + 1)
  /-- `[async] read name return` -/
  | read (k : Nat) (a : Bool) (n : String) (us : List Token) (r : Option TypeId) : RetG q us r →
      DeclG q k (asyncTokens a ++ .kwRead :: .id n :: us) (.fn ⟨n, k, [], r, true, a⟩) (k + 1)
  /-- `const name { items }` -/
  | const (k : Nat) (n : String) (ts : List Token) (is : List ConstItem) : ConstG q ts is →
      DeclG q k (.kwConst :: .id n :: .sym '{' :: (ts ++ [.sym '}'])) (.const ⟨n, is⟩) k
  /-- `#[name = literal]` -/
  | valueDirective (k : Nat) (n : String) (l : Literal) :
      DeclG q k [.sym '#', .sym '[', .id n, .sym '=', .lit l, .sym ']']
        (.directive (.value n (constOf l))) k
  /-- `#[name(entries)]` -/
  | groupDirective (k : Nat) (n : String) (ts : List Token) (ps : List IdValuePair) (e : Bool)
      (x : Token) : CommaList PairG 0 ts ps e → GroupEnd q e x →
      DeclG q k (.sym '#' :: .sym '[' :: .id n :: .sym '(' :: (ts ++ [x, .sym ']']))
        (.directive (.group n ps)) k

/-- A whole schema. -/
inductive SchemaG (q : Bool) : Nat → List Token → List ASTNode → Nat → Prop
  | nil (k : Nat) : SchemaG q k [] [] k
  | cons (k k' k'' : Nat) (ts us : List Token) (d : ASTNode) (ds : List ASTNode) :
      DeclG q k ts d k' → SchemaG q k' us ds k'' → SchemaG q k (ts ++ us) (d :: ds) k''

end TPB.Spec
