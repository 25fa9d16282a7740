/-
Specification of the Kotlin and Swift models: what is declared for a schema, what `createDefault` returns, and
when declared names and used names are the same.

The emitted text is described by a syntax tree (`Sem/Kotlin.lean`, `Sem/Swift.lean`): `Kotlin.IsText F out` says
that `out` is the text of the declarations `F`.
-/
import Verif.Spec.Mobile
import Verif.Sem.Kotlin
import Verif.Sem.Swift
namespace TPB.Spec

/-- How names of the schema are spelled where they are declared: structs, enums, variants (enum, variant), fields
of structs, fields of variants. -/
structure Declared where
  struct : String → String
  enum : String → String
  variant : String → String → String
  field : String → String
  variantField : String → String

/-- How names of the schema are spelled where they are used. -/
structure Used where
  type : String → String
  variant : String → String → String
  field : String → String
  variantField : String → String

/-- Types of the command runtime that the phone libraries have no class for. -/
def IsAddress (id : String) : Prop := id = "GroupAddress" ∨ id = "CommandsBufferAddress"

/-- A struct or an enum of the schema has this name. -/
def Own (S : List ASTNode) (id : String) : Prop :=
  (∃ n, ASTNode.struct n ∈ S ∧ n.id = id) ∨ (∃ n, ASTNode.enum n ∈ S ∧ n.id = id)

/-- Every name of the schema is declared and used with the same spelling, and names that the schema does not
declare are used as they are.  The variants that are used are the first ones (in `createDefault`). -/
structure SameSpelling (S : List ASTNode) (D : Declared) (U : Used) : Prop where
  struct : ∀ n, .struct n ∈ S → D.struct n.id = U.type n.id ∧ ∀ f ∈ n.fields, D.field f.name = U.field f.name
  enum : ∀ n, .enum n ∈ S → D.enum n.id = U.type n.id
  variant : ∀ n, .enum n ∈ S → ∀ i ∈ n.items.head?, D.variant n.id i.id = U.variant n.id i.id ∧
    ∀ p fs, i = .struct p i.id fs → ∀ f ∈ fs, D.variantField f.name = U.variantField f.name
  foreign : ∀ id, ¬ Own S id → U.type id = id

/-! ### Kotlin -/
namespace Kotlin
open TPB.Kotlin

/-- `out` is the text of the declarations `F`. -/
def IsText (F : List Item) (out : String) : Prop := out = linesText 4 (renderItems F)

/-- The Kotlin type of a schema type. -/
inductive TypeIs (U : Used) : TypeId → Ty → Prop
  | builtin {n v k} : (n, v) ∈ builtinMeanings → (v, k) ∈ kotlinNames → TypeIs U (typeOfName n) (.named k)
  | address {id} : IsAddress id → TypeIs U (.other id) (.named "ULong")
  | other {id} : ¬ IsAddress id → TypeIs U (.other id) (.named (U.type id))
  | list {ts ks} : Each (TypeIs U) ts ks → TypeIs U (.generic "Vec" ts) (.app "List" ks)
  | generic {id ts ks} : id ≠ "Vec" → Each (TypeIs U) ts ks → TypeIs U (.generic id ts) (.app (U.type id) ks)

/-- The declaration of a variant of the enum `e`: an object, or a class with one parameter for each value.  The
parameters of a tuple variant have different names. -/
inductive VariantIs (D : Declared) (U : Used) (e : String) : EnumItem → Item → Prop
  | empty {p id} : VariantIs D U e (.empty p id) (.object (D.variant e id) (U.type e))
  | tuple {p id vs ps} : Each (fun (v : TupleField) (q : String × Ty) => TypeIs U v.typeId q.2) vs ps →
      (ps.map (·.1)).Nodup →
      VariantIs D U e (.tuple p id vs) (.cls (D.variant e id) true ps (some (U.type e)) none)
  | struct {p id fs ps} :
      Each (fun (f : StructField) (q : String × Ty) => q.1 = D.variantField f.name ∧ TypeIs U f.typeId q.2) fs ps →
      VariantIs D U e (.struct p id fs) (.cls (D.variant e id) true ps (some (U.type e)) none)

/-- What is declared for a declaration of the schema: a class with the fields in order for a struct, an interface
and its variants in order for an enum, nothing for the rest. -/
inductive Declares (D : Declared) (U : Used) : ASTNode → List Item → Prop
  | struct {n ps c} :
      Each (fun (f : StructField) (q : String × Ty) => q.1 = D.field f.name ∧ TypeIs U f.typeId q.2) n.fields ps →
      Declares D U (.struct n) [.cls (D.struct n.id) (!ps.isEmpty) ps none (some c)]
  | enum {n c vs} : Each (VariantIs D U n.id) n.items vs → Declares D U (.enum n) (.interface (D.enum n.id) c :: vs)
  | fn {n} : Declares D U (.fn n) []
  | const {n} : Declares D U (.const n) []
  | directive {n} : Declares D U (.directive n) []

/-- Data classes have parameters (the language asks for one). -/
def DataClassesOk (F : List Item) : Prop := ∀ n ps s c, Item.cls n true ps s c ∈ F → ps ≠ []

/-- Kotlin literals for zero, `false` and the character zero. -/
def zeros : List (ValueType × String) :=
  [(.int 8 true, "0"), (.int 32 true, "0"), (.int 64 true, "0L"), (.int 8 false, "0U"), (.int 32 false, "0U"),
   (.int 64 false, "0UL"), (.float 32, "0f"), (.float 64, "0.0"), (.bool, "false"), (.char, "'\\u0000'")]

/-- The zero value of a type: zero, `false`, the empty string, the empty list, the default of another class. -/
inductive ZeroIs (U : Used) : TypeId → Expr → Prop
  | builtin {n v s} : (n, v) ∈ builtinMeanings → (v, s) ∈ zeros → ZeroIs U (typeOfName n) (.lit s)
  | string : ZeroIs U (.other "String") (.lit "\"\"")
  | bareList : ZeroIs U (.other "Vec") .emptyList
  | address {id} : IsAddress id → ZeroIs U (.other id) (.lit "0UL")
  | other {id} : ¬ IsAddress id → id ≠ "String" → id ≠ "Vec" → ZeroIs U (.other id) (.create (U.type id))
  | list {ts} : ZeroIs U (.generic "Vec" ts) .emptyList
  | generic {id ts ks} : id ≠ "Vec" → Each (TypeIs U) ts ks → ZeroIs U (.generic id ts) (.createGeneric (U.type id) ks)

/-- Only about names: if an expression asks another class for its default, it is the class of the type. -/
def RefersTo (U : Used) (t : TypeId) : Expr → Prop
  | .create c => ∃ id, t = .other id ∧ c = U.type id
  | .createGeneric c ks => ∃ id ts, t = .generic id ts ∧ c = U.type id ∧ Each (TypeIs U) ts ks
  | _ => True

/-- The default of an enum is its first variant, with `Z` relating types to argument values. -/
inductive FirstIs (U : Used) (Z : TypeId → Expr → Prop) (e : String) : EnumItem → New → Prop
  | empty {p id} : FirstIs U Z e (.empty p id) (.object (U.variant e id))
  | tuple {p id vs as} : Each (fun (v : TupleField) (a : Option String × Expr) => a.1 = none ∧ Z v.typeId a.2) vs as →
      FirstIs U Z e (.tuple p id vs) (.call (U.variant e id) as)
  | struct {p id fs as} :
      Each (fun (f : StructField) (a : Option String × Expr) => a.1 = some (U.variantField f.name) ∧ Z f.typeId a.2) fs as →
      FirstIs U Z e (.struct p id fs) (.call (U.variant e id) as)

/-- `createDefault` of a struct builds it from the values of its fields in order, of an enum its first variant. -/
inductive Creates (U : Used) (Z : TypeId → Expr → Prop) : ASTNode → List Item → Prop
  | struct {n c b ps s as} :
      Each (fun (f : StructField) (a : Option String × Expr) => a.1 = some (U.field f.name) ∧ Z f.typeId a.2) n.fields as →
      Creates U Z (.struct n) [.cls c b ps s (some ⟨U.type n.id, .call (U.type n.id) as⟩)]
  | enum {n c i is v vs} : n.items = i :: is → FirstIs U Z n.id i v →
      Creates U Z (.enum n) (.interface c ⟨U.type n.id, v⟩ :: vs)
  | fn {n} : Creates U Z (.fn n) []
  | const {n} : Creates U Z (.const n) []
  | directive {n} : Creates U Z (.directive n) []

/-- A file made of one block of declarations for each declaration of the schema, in order. -/
def File (P : ASTNode → List Item → Prop) (S : List ASTNode) (F : List Item) : Prop :=
  ∃ bs, F = bs.flatten ∧ Each P S bs

/-- Declared names are the names that are used. -/
def Consistent (S : List ASTNode) (F : List Item) : Prop :=
  ∃ D U, SameSpelling S D U ∧ File (fun d b => Declares D U d b ∧ Creates U (RefersTo U) d b) S F

end Kotlin

/-! ### Swift -/
namespace Swift
open TPB.Swift

/-- `out` is the text of the declarations `F`. -/
def IsText (F : List Item) (out : String) : Prop := out = linesText 4 (renderItems F)

/-- The Swift type of a schema type, given the names of the built-in types. -/
inductive TypeIs (names : List (ValueType × String)) (U : Used) : TypeId → Ty → Prop
  | builtin {n v k} : (n, v) ∈ builtinMeanings → (v, k) ∈ names → TypeIs names U (typeOfName n) (.named k)
  | address {id} : IsAddress id → TypeIs names U (.other id) (.named "UInt64")
  | other {id} : ¬ IsAddress id → TypeIs names U (.other id) (.named (U.type id))
  | list {ts ks} : Each (TypeIs names U) ts ks → TypeIs names U (.generic "Vec" ts) (.array ks)
  | generic {id ts ks} : id ≠ "Vec" → Each (TypeIs names U) ts ks →
      TypeIs names U (.generic id ts) (.app (U.type id) ks)

/-- The names of the built-in types with `char` written as in the schema (`C43_swift_char`: that is not a Swift
type). -/
def namesWithChar : List (ValueType × String) := (.char, "char") :: swiftNames.filter (·.1 ≠ .char)

/-- The declaration of a variant of the enum `e`: a case with one parameter for each value.  Comments in it have
no meaning. -/
inductive VariantIs (names : List (ValueType × String)) (D : Declared) (U : Used) (e : String) : EnumItem → Case → Prop
  | empty {p id} : VariantIs names D U e (.empty p id) ⟨D.variant e id, []⟩
  | tuple {p id vs ps} : Each (fun (v : TupleField) (q : Option String × Ty) => TypeIs names U v.typeId q.2) vs ps →
      VariantIs names D U e (.tuple p id vs) ⟨D.variant e id, ps⟩
  | struct {p id fs ps} : Each (fun (f : StructField) (q : Option String × Ty) => TypeIs names U f.typeId q.2) fs ps →
      VariantIs names D U e (.struct p id fs) ⟨D.variant e id, ps⟩

/-- What is declared for a declaration of the schema. -/
inductive Declares (names : List (ValueType × String)) (D : Declared) (U : Used) : ASTNode → List Item → Prop
  | struct {n ps c} :
      Each (fun (f : StructField) (q : String × Ty) => q.1 = D.field f.name ∧ TypeIs names U f.typeId q.2) n.fields ps →
      Declares names D U (.struct n) [.struct (D.struct n.id) ps c]
  | enum {n c vs} : Each (VariantIs names D U n.id) n.items vs →
      Declares names D U (.enum n) [.enum (D.enum n.id) vs c]
  | fn {n} : Declares names D U (.fn n) []
  | const {n} : Declares names D U (.const n) []
  | directive {n} : Declares names D U (.directive n) []

/-- A case without parameters is not called (the language does not allow it). -/
def CallsOk (F : List Item) : Prop :=
  ∀ n cs t id as, Item.enum n cs ⟨t, .caseOf id as⟩ ∈ F → as ≠ []

/-- Swift literals for zero, `false` and the character zero. -/
def zeros : List (ValueType × String) :=
  [(.int 8 true, "0"), (.int 32 true, "0"), (.int 64 true, "0"), (.int 8 false, "0"), (.int 32 false, "0"),
   (.int 64 false, "0"), (.float 32, "0"), (.float 64, "0"), (.bool, "false"), (.char, "\"\\0\"")]

/-- The zero value of a type. -/
inductive ZeroIs (names : List (ValueType × String)) (U : Used) : TypeId → Expr → Prop
  | builtin {n v s} : (n, v) ∈ builtinMeanings → (v, s) ∈ zeros → ZeroIs names U (typeOfName n) (.lit s)
  | string : ZeroIs names U (.other "String") (.lit "\"\"")
  | bareList : ZeroIs names U (.other "Vec") .emptyArray
  | address {id} : IsAddress id → ZeroIs names U (.other id) (.lit "0")
  | other {id} : ¬ IsAddress id → id ≠ "String" → id ≠ "Vec" → ZeroIs names U (.other id) (.create (U.type id))
  | list {ts} : ZeroIs names U (.generic "Vec" ts) .emptyArray
  | generic {id ts ks} : id ≠ "Vec" → Each (TypeIs names U) ts ks →
      ZeroIs names U (.generic id ts) (.createGeneric (U.type id) ks)

/-- Only about names: if an expression asks another type for its default, it is the type itself. -/
def RefersTo (names : List (ValueType × String)) (U : Used) (t : TypeId) : Expr → Prop
  | .create c => ∃ id, t = .other id ∧ c = U.type id
  | .createGeneric c ks => ∃ id ts, t = .generic id ts ∧ c = U.type id ∧ Each (TypeIs names U) ts ks
  | _ => True

/-- The value of an argument without label. -/
def Arg.unlabelled : Arg → Option Expr
  | .labelled _ _ => none
  | .commented _ e => some e
  | .plain e => some e

/-- The default of an enum is its first variant, with `Z` relating types to argument values. -/
inductive FirstIs (U : Used) (Z : TypeId → Expr → Prop) (e : String) : EnumItem → New → Prop
  | empty {p id} : FirstIs U Z e (.empty p id) (.case (U.variant e id))
  | tuple {p id vs as} : Each (fun (v : TupleField) (a : Arg) => ∃ x, Arg.unlabelled a = some x ∧ Z v.typeId x) vs as →
      FirstIs U Z e (.tuple p id vs) (.caseOf (U.variant e id) as)
  | struct {p id fs as} : Each (fun (f : StructField) (a : Arg) => ∃ x, Arg.unlabelled a = some x ∧ Z f.typeId x) fs as →
      FirstIs U Z e (.struct p id fs) (.caseOf (U.variant e id) as)

/-- `createDefault` of a struct builds it from the values of its fields in order, of an enum its first variant. -/
inductive Creates (U : Used) (Z : TypeId → Expr → Prop) : ASTNode → List Item → Prop
  | struct {n c ps as} :
      Each (fun (f : StructField) (a : Arg) => ∃ x, a = .labelled (U.field f.name) x ∧ Z f.typeId x) n.fields as →
      Creates U Z (.struct n) [.struct c ps ⟨U.type n.id, .inst (U.type n.id) as⟩]
  | enum {n c i is v vs} : n.items = i :: is → FirstIs U Z n.id i v → Creates U Z (.enum n) [.enum c vs ⟨U.type n.id, v⟩]
  | fn {n} : Creates U Z (.fn n) []
  | const {n} : Creates U Z (.const n) []
  | directive {n} : Creates U Z (.directive n) []

/-- A file made of one block of declarations for each declaration of the schema, in order. -/
def File (P : ASTNode → List Item → Prop) (S : List ASTNode) (F : List Item) : Prop :=
  ∃ bs, F = bs.flatten ∧ Each P S bs

/-- Declared names are the names that are used. -/
def Consistent (S : List ASTNode) (F : List Item) : Prop :=
  ∃ D U, SameSpelling S D U ∧
    File (fun d b => Declares namesWithChar D U d b ∧ Creates U (RefersTo namesWithChar U) d b) S F

end Swift

/-! ### Schemas -/

/-- The values that `createDefault` functions give: the types of the fields of structs and of first variants. -/
def defaulted : ASTNode → List TypeId
  | .struct n => n.fields.map (·.typeId)
  | .enum n => match n.items with
    | .tuple _ _ vs :: _ => vs.map (·.typeId)
    | .struct _ _ fs :: _ => fs.map (·.typeId)
    | _ => []
  | _ => []

/-- A variant `A()` or `A {}`. -/
def EmptyParens : EnumItem → Prop
  | .tuple _ _ [] => True
  | .struct _ _ [] => True
  | _ => False

end TPB.Spec
