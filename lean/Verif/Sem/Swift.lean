/-
Syntax of the Swift code that the generator emits for the models of a schema, with its rendering to text.

As for Kotlin: `gen*` builds the syntax tree of the emitted declarations, `render*` prints it, and
`Proofs/SwiftText.lean` proves that the printed tree is exactly the text that `Model/SwiftGen.lean` produces.
-/
import Verif.Model.SwiftGen
import Verif.Sem.Text
namespace TPB.Swift

/-- A type: `Foo`, `Foo<A, B>` or `[A]`. -/
inductive Ty where
  | named (id : String)
  | app (id : String) (args : List Ty)
  | array (args : List Ty)
  deriving Repr, Inhabited

/-- An expression: a literal, `[]`, `T.createDefault()` or `T<A, B>.createDefault()`. -/
inductive Expr where
  | lit (text : String)
  | emptyArray
  | create (id : String)
  | createGeneric (id : String) (args : List Ty)
  deriving Repr, Inhabited

/-- An argument of a call: `label: e`, `/* comment */ e` or `e`. -/
inductive Arg where
  | labelled (label : String) (e : Expr)
  | commented (comment : String) (e : Expr)
  | plain (e : Expr)
  deriving Repr, Inhabited

/-- The value that `createDefault` returns: `T(..)`, `.case` or `.case(..)`. -/
inductive New where
  | inst (id : String) (args : List Arg)
  | case (id : String)
  | caseOf (id : String) (args : List Arg)
  deriving Repr, Inhabited

/-- `static func createDefault() -> T { return value }`. -/
structure Default where
  type : String
  value : New
  deriving Repr, Inhabited

/-- `case id` or `case id(/* comment */ T, ..)`. -/
structure Case where
  id : String
  params : List (Option String × Ty)
  deriving Repr, Inhabited

/-- A top-level declaration. -/
inductive Item where
  | struct (id : String) (fields : List (String × Ty)) (default : Default)
  | enum (id : String) (cases : List Case) (default : Default)
  deriving Repr, Inhabited

/-! ### Rendering -/

def Ty.render : Ty → String
  | .named id => id
  | .app id args => id ++ "<" ++ joinStr ", " (args.map Ty.render) ++ ">"
  | .array args => "[" ++ joinStr ", " (args.map Ty.render) ++ "]"

def Expr.render : Expr → String
  | .lit s => s
  | .emptyArray => "[]"
  | .create id => id ++ ".createDefault()"
  | .createGeneric id args => id ++ "<" ++ joinStr ", " (args.map Ty.render) ++ ">.createDefault()"

def Arg.render : Arg → String
  | .labelled l e => l ++ ": " ++ e.render
  | .commented c e => "/* " ++ c ++ " */ " ++ e.render
  | .plain e => e.render

/-- Lines at indentation `t`, all but the last followed by a comma. -/
def commaLines (t : Nat) : List String → List Line
  | [] => []
  | [s] => [(t, s)]
  | s :: u :: us => (t, s ++ ",") :: commaLines t (u :: us)

/-- `head(args)` at indentation `t`. -/
def renderCall (t : Nat) (head : String) (args : List Arg) : List Line :=
  match args with
  | [] => [(t, head ++ "()")]
  | a :: as => [(t, head ++ "(")] ++ commaLines (t + 1) ((a :: as).map Arg.render) ++ [(t, ")")]

def New.render (t : Nat) (head : String) : New → List Line
  | .inst id args => renderCall t (head ++ id) args
  | .case id => [(t, head ++ "." ++ id)]
  | .caseOf id args => renderCall t (head ++ "." ++ id) args

def Default.render (d : Default) : List Line :=
  [(1, "static func createDefault() -> " ++ d.type ++ " {")] ++ d.value.render 2 "return " ++ [(1, "}")]

def renderParam (p : Option String × Ty) : String :=
  match p.1 with
  | some c => "/* " ++ c ++ " */ " ++ p.2.render
  | none => p.2.render

def Case.render (c : Case) : List Line :=
  match c.params with
  | [] => [(1, "case " ++ c.id)]
  | p :: ps => [(1, "case " ++ c.id ++ "(")] ++ commaLines 2 ((p :: ps).map renderParam) ++ [(1, ")")]

/-- A body and the default, separated by a blank line unless the body is empty. -/
def renderMembers (body : List Line) (d : Default) : List Line :=
  match body with
  | [] => d.render
  | b :: bs => b :: bs ++ (0, "") :: d.render

def Item.render : Item → List Line
  | .struct id fs d => [(0, "struct " ++ id ++ " {")]
      ++ renderMembers (fs.map (fun f => (1, "var " ++ f.1 ++ ": " ++ f.2.render))) d ++ [(0, "}")]
  | .enum id cs d => [(0, "enum " ++ id ++ " {")] ++ renderMembers (cs.flatMap Case.render) d ++ [(0, "}")]

/-- Declarations are separated by blank lines. -/
def renderItems (is : List Item) : List Line := joinBlocks (is.map Item.render)

/-! ### The tree emitted for a schema -/

/-- swift/ir.rs 291-299: the name of an integer type. -/
def intName (size : Nat) (signed : Bool) : String :=
  match size, signed with
  | 1, true => "Int8"
  | 4, true => "Int32"
  | 1, false => "UInt8"
  | 4, false => "UInt32"
  | _, true => "Int64"
  | _, false => "UInt64"

/-- swift/ir.rs 307-311: `Other` types. -/
def genName (id : String) : String := if id = "GroupAddress" ∨ id = "CommandsBufferAddress" then "UInt64" else id

mutual
/-- swift/ir.rs 289-332 `generate_type_id` -/
def genTy : TypeId → Ty
  | .integer _ size signed => .named (intName size signed)
  | .number _ size => .named (if size = 4 then "Float" else "Double")
  | .bool _ => .named "Bool"
  | .char id => .named id
  | .other id => .named (genName id)
  | .generic id gs => if id = "Vec" then .array (genTys gs) else .app id (genTys gs)
def genTys : List TypeId → List Ty
  | [] => []
  | t :: ts => genTy t :: genTys ts
end

/-- swift/ir.rs 371-399 `generate_default_const_value` -/
def genDefault : TypeId → Expr
  | .integer _ _ _ => .lit "0"
  | .number _ _ => .lit "0"
  | .bool _ => .lit "false"
  | .char _ => .lit "0"
  | .other id => if id = "String" then .lit "\"\"" else if id = "Vec" then .emptyArray else .create id
  | .generic id gs => if id = "Vec" then .emptyArray else .createGeneric id (genTys gs)

def genStruct (x : ExtF) (n : StructNode) : Item :=
  .struct (x.pascal n.id) (n.fields.map (fun f => (x.camel f.name, genTy f.typeId)))
    ⟨genName n.id, .inst (genName n.id) (n.fields.map (fun f => .labelled (x.camel f.name) (genDefault f.typeId)))⟩

def genCase (x : ExtF) : EnumItem → Case
  | .empty _ id => ⟨x.camel id, []⟩
  | .tuple _ id vs => ⟨x.camel id, vs.map (fun v => (none, genTy v.typeId))⟩
  | .struct _ id fs => ⟨x.camel id, fs.map (fun f => (some f.name, genTy f.typeId))⟩

def genEnumDefault (x : ExtF) : EnumItem → New
  | .empty _ id => .case (x.camel id)
  | .tuple _ id vs => .caseOf (x.camel id) (vs.map (fun v => .plain (genDefault v.typeId)))
  | .struct _ id fs => .caseOf (x.camel id) (fs.map (fun f => .commented (x.camel f.name) (genDefault f.typeId)))

def genEnum (x : ExtF) (n : EnumNode) : List Item :=
  match n.items with
  | [] => []
  | i :: _ => [.enum (x.pascal n.id) (n.items.map (genCase x)) ⟨genName n.id, genEnumDefault x i⟩]

def genItem (x : ExtF) : ASTNode → List Item
  | .struct n => [genStruct x n]
  | .enum n => genEnum x n
  | _ => []

/-- The declarations emitted for a schema. -/
def genItems (x : ExtF) (S : List ASTNode) : List Item := S.flatMap (genItem x)

end TPB.Swift
