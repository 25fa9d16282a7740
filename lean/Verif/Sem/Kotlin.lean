/-
Syntax of the Kotlin code that the generator emits, with its rendering to text.

`gen*` builds, from a schema, the syntax tree of the emitted declarations; `render*` prints a tree as lines
of text.  `Proofs/KotlinText.lean` proves that printing the tree gives exactly the text that
`Model/KotlinGen.lean` produces, so a statement about the tree is a statement about the emitted text.
-/
import Verif.Model.KotlinGen
import Verif.Sem.Text
import Verif.Sem.Each
namespace TPB.Kotlin

/-- A type: `Foo` or `Foo<A, B>`. -/
inductive Ty where
  | named (id : String)
  | app (id : String) (args : List Ty)
  deriving Repr, Inhabited

/-- An expression: a literal (`0L`, `"a"`, `false`), `listOf()`, `T.createDefault()` or
`T.createDefault<A, B>()`. -/
inductive Expr where
  | lit (text : String)
  | emptyList
  | create (id : String)
  | createGeneric (id : String) (args : List Ty)
  deriving Repr, Inhabited

/-- The value of a function: the name of an object, or a call of a constructor with positional or named
arguments. -/
inductive New where
  | object (id : String)
  | call (id : String) (args : List (Option String × Expr))
  deriving Repr, Inhabited

/-- `companion object { fun createDefault(): T = value }`. -/
structure Companion where
  type : String
  value : New
  deriving Repr, Inhabited

/-- A top-level declaration. -/
inductive Item where
  /-- `sealed interface I { companion }` -/
  | interface (id : String) (companion : Companion)
  /-- `object O : I` -/
  | object (id : String) (supertype : String)
  /-- `data class C(val p: T, ..)`, with a supertype or with a companion; a class without parameters that
  has a companion is not a data class -/
  | cls (id : String) (isData : Bool) (params : List (String × Ty)) (supertype : Option String) (companion : Option Companion)
  deriving Repr, Inhabited

/-! ### Rendering -/

def Ty.render : Ty → String
  | .named id => id
  | .app id args => id ++ "<" ++ joinStr ", " (args.map Ty.render) ++ ">"

def Expr.render : Expr → String
  | .lit s => s
  | .emptyList => "listOf()"
  | .create id => id ++ ".createDefault()"
  | .createGeneric id args => id ++ ".createDefault<" ++ joinStr ", " (args.map Ty.render) ++ ">()"

def renderArg (a : Option String × Expr) : String :=
  match a.1 with
  | some n => n ++ " = " ++ a.2.render ++ ","
  | none => a.2.render ++ ","

/-- The lines of `head` followed by the value, indented by `t`. -/
def New.render (t : Nat) (head : String) : New → List Line
  | .object id => [(t, head ++ id)]
  | .call id [] => [(t, head ++ id ++ "()")]
  | .call id args => [(t, head ++ id ++ "(")] ++ args.map (fun a => (t + 1, renderArg a)) ++ [(t, ")")]

def Companion.render (c : Companion) : List Line :=
  [(1, "companion object {")] ++ c.value.render 2 ("fun createDefault(): " ++ c.type ++ " = ") ++ [(1, "}")]

/-- The rest of the header of a class and its body. -/
def renderBody (head : String) : Option Companion → List Line
  | none => [(0, head)]
  | some c => [(0, head ++ " {")] ++ c.render ++ [(0, "}")]

def renderSuper : Option String → String
  | none => ""
  | some s => " : " ++ s

def Item.render : Item → List Line
  | .interface id c => [(0, "sealed interface " ++ id ++ " {")] ++ c.render ++ [(0, "}")]
  | .object id s => [(0, "object " ++ id ++ " : " ++ s)]
  | .cls id isData [] s c => renderBody ((if isData then "data " else "") ++ "class " ++ id ++ "()" ++ renderSuper s) c
  | .cls id isData ps s c => [(0, (if isData then "data " else "") ++ "class " ++ id ++ "(")]
      ++ ps.map (fun p => (1, "val " ++ p.1 ++ ": " ++ p.2.render ++ ",")) ++ renderBody (")" ++ renderSuper s) c

def Item.isInterface : Item → Bool
  | .interface _ _ => true
  | _ => false

/-- Declarations are separated by blank lines, except for two interfaces. -/
def renderItems : List Item → List Line
  | [] => []
  | [i] => i.render
  | i :: j :: is => i.render ++ (if i.isInterface && j.isInterface then [] else [(0, "")]) ++ renderItems (j :: is)

/-! ### The tree emitted for a schema -/

/-- kotlin/ir.rs 329-337: the name of an integer type. -/
def intName (size : Nat) (signed : Bool) : String :=
  match size, signed with
  | 1, true => "Byte"
  | 4, true => "Int"
  | 1, false => "UByte"
  | 4, false => "UInt"
  | _, true => "Long"
  | _, false => "ULong"

mutual
/-- kotlin/ir.rs 327-370 `generate_type_id` -/
def genTy : TypeId → Ty
  | .integer _ size signed => .named (intName size signed)
  | .number _ size => .named (if size = 4 then "Float" else "Double")
  | .bool _ => .named "Boolean"
  | .char _ => .named "Char"
  | .other id => .named (if id = "GroupAddress" ∨ id = "CommandsBufferAddress" then "ULong" else id)
  | .generic id gs => .app (if id = "Vec" then "List" else id) (genTys gs)
def genTys : List TypeId → List Ty
  | [] => []
  | t :: ts => genTy t :: genTys ts
end

/-- kotlin/ir.rs 419-427: zero. -/
def intZero (size : Nat) (signed : Bool) : String :=
  match size, signed with
  | 1, true => "0"
  | 4, true => "0"
  | 1, false => "0U"
  | 4, false => "0U"
  | _, true => "0L"
  | _, false => "0UL"

/-- kotlin/ir.rs 417-453 `generate_default_const_value` -/
def genDefault : TypeId → Expr
  | .integer _ size signed => .lit (intZero size signed)
  | .number _ size => .lit (if size = 4 then "0f" else "0.0")
  | .bool _ => .lit "false"
  | .char _ => .lit "0"
  | .other id => if id = "String" then .lit "\"\"" else if id = "Vec" then .emptyList else .create id
  | .generic id gs => if id = "Vec" then .emptyList else .createGeneric id (genTys gs)

/-- `id` as a return type: kotlin/ir.rs 345-349. -/
def genName (id : String) : String := if id = "GroupAddress" ∨ id = "CommandsBufferAddress" then "ULong" else id

/-- Named default arguments of a constructor call. -/
def genNamedArgs (x : ExtF) (fs : List StructField) : List (Option String × Expr) :=
  fs.map (fun f => (some (x.camel f.name), genDefault f.typeId))

def genStruct (x : ExtF) (n : StructNode) : Item :=
  .cls (x.pascal n.id) (!n.fields.isEmpty) (n.fields.map (fun f => (x.camel f.name, genTy f.typeId))) none
    (some ⟨genName n.id, .call n.id (genNamedArgs x n.fields)⟩)

/-- Parameters `p0`, `p1`, ... -/
def genTuple (i : Nat) : List TupleField → List (String × Ty)
  | [] => []
  | v :: vs => ("p" ++ toString i, genTy v.typeId) :: genTuple (i + 1) vs

def genCase (x : ExtF) (enumId : String) : EnumItem → Item
  | .empty _ id => .object (x.pascal (enumId ++ id)) enumId
  | .tuple _ id vs => .cls (x.pascal (enumId ++ id)) true (genTuple 0 vs) (some enumId) none
  | .struct _ id fs => .cls (x.pascal (enumId ++ id)) true (fs.map (fun f => (f.name, genTy f.typeId))) (some enumId) none

def genEnumDefault (x : ExtF) (enumId : String) : EnumItem → New
  | .empty _ id => .object (enumId ++ id)
  | .tuple _ id vs => .call (enumId ++ id) (vs.map (fun v => (none, genDefault v.typeId)))
  | .struct _ id fs => .call (enumId ++ id) (genNamedArgs x fs)

def genEnum (x : ExtF) (n : EnumNode) : List Item :=
  match n.items with
  | [] => []
  | i :: _ => .interface n.id ⟨genName n.id, genEnumDefault x n.id i⟩ :: n.items.map (genCase x n.id)

def genItem (x : ExtF) : ASTNode → List Item
  | .struct n => [genStruct x n]
  | .enum n => genEnum x n
  | _ => []

/-- The declarations emitted for a schema. -/
def genItems (x : ExtF) (S : List ASTNode) : List Item := S.flatMap (genItem x)

end TPB.Kotlin
