/-
A type checker's view of the emitted Kotlin and Swift models: when the compilers accept them, as far as names
and types go.  It speaks about the trees of `Sem/Kotlin.lean` and `Sem/Swift.lean`, whose text is the generated
file, and about the standard and imported libraries through `KotlinLib` and `SwiftLib` only.

Covered: resolution of names, clashes of names, keywords, literals, arguments of constructors, subtypes, types of
finite size (Swift).  Not covered: clashes of compiled names (Java), imported types that are called like a type of
the schema and have a constructor that fits, warnings.
-/
import Verif.Spec.MobileConsts
import Verif.Spec.MobileModels
import Verif.Spec.Dart
namespace TPB.Spec

/-- The name of a built-in type in a language. -/
def BuiltinName (names : List (ValueType × String)) (t : TypeId) (k : String) : Prop :=
  ∃ n v, t = typeOfName n ∧ (n, v) ∈ builtinMeanings ∧ (v, k) ∈ names

/-! ## Kotlin -/

/-- What a Kotlin file uses from elsewhere. -/
structure KotlinLib where
  /-- classes with so many type parameters -/
  types : String → Nat → Prop
  /-- `C.createDefault<A, ..>()` exists, with so many type arguments, and has the type `C<A, ..>` -/
  defaults : String → Nat → Prop
  /-- names of other declarations of the same package -/
  others : List String

/-- Kotlin standard library. -/
structure KotlinLib.Std (L : KotlinLib) : Prop where
  basic : ∀ p ∈ kotlinNames, L.types p.2 0
  list : ∀ n, L.types "List" n ↔ n = 1

namespace Kotlin
open TPB.Kotlin

def _root_.TPB.Kotlin.Item.id : Item → String
  | .interface id _ => id
  | .object id _ => id
  | .cls id _ _ _ _ => id

/-- The type exists; `D` are the names of the types declared in the file. -/
inductive TyOk (L : KotlinLib) (D : List String) : Ty → Prop
  | own {id} : id ∈ D → TyOk L D (.named id)
  | lib {id} : id ∉ D → L.types id 0 → TyOk L D (.named id)
  | app {c args} : c ∉ D → L.types c args.length → (∀ a ∈ args, TyOk L D a) → TyOk L D (.app c args)

/-- The types that a literal has, depending on the expected type. -/
def literalTypes : List (String × List String) :=
  [("0", ["Byte", "Short", "Int", "Long"]), ("0L", ["Long"]), ("0U", ["UByte", "UShort", "UInt", "ULong"]),
   ("0UL", ["ULong"]), ("0f", ["Float"]), ("0.0", ["Double"]), ("false", ["Boolean"]), ("\"\"", ["String"])]

/-- A class or an interface with a companion object. -/
def HasCompanion (F : List Item) (id : String) (c : Companion) : Prop :=
  .interface id c ∈ F ∨ ∃ b ps s, Item.cls id b ps s (some c) ∈ F

/-- The expression has the type. -/
inductive ExprTyped (L : KotlinLib) (F : List Item) : Expr → Ty → Prop
  | lit {s Ts T} : (s, Ts) ∈ literalTypes → T ∈ Ts → T ∉ F.map (·.id) → ExprTyped L F (.lit s) (.named T)
  | list {t} : "List" ∉ F.map (·.id) → "listOf" ∉ F.map (·.id) → ExprTyped L F .emptyList (.app "List" [t])
  | own {id c} : HasCompanion F id c → ExprTyped L F (.create id) (.named c.type)
  | lib {id} : id ∉ F.map (·.id) → L.defaults id 0 → ExprTyped L F (.create id) (.named id)
  | generic {c args} : c ∉ F.map (·.id) → L.defaults c args.length → (∀ a ∈ args, TyOk L (F.map (·.id)) a) →
      ExprTyped L F (.createGeneric c args) (.app c args)

/-- The arguments of a constructor with the parameters `ps`: one after the other, or by name, each parameter
exactly once. -/
inductive ArgsTyped (L : KotlinLib) (F : List Item) (ps : List (String × Ty)) : List (Option String × Expr) → Prop
  | positional {as} : Each (fun (a : Option String × Expr) (p : String × Ty) => a.1 = none ∧ ExprTyped L F a.2 p.2) as ps →
      ArgsTyped L F ps as
  | byName {as : List (Option String × Expr)} : (as.map (·.1)).Nodup → (∀ p ∈ ps, some p.1 ∈ as.map (·.1)) →
      (∀ a ∈ as, ∃ n t, a.1 = some n ∧ (n, t) ∈ ps ∧ ExprTyped L F a.2 t) → ArgsTyped L F ps as

/-- The value is an object of the class. -/
inductive NewTyped (L : KotlinLib) (F : List Item) : New → String → Prop
  | object {id s} : Item.object id s ∈ F → NewTyped L F (.object id) id
  | call {id b ps s c as} : Item.cls id b ps s c ∈ F → ArgsTyped L F ps as → NewTyped L F (.call id as) id

/-- `a` is `b` or declared as a subtype of `b`. -/
def Subtype (F : List Item) (a b : String) : Prop :=
  a = b ∨ Item.object a b ∈ F ∨ ∃ d ps c, Item.cls a d ps (some b) c ∈ F

def CompanionTyped (L : KotlinLib) (F : List Item) (c : Companion) : Prop :=
  ∃ a, NewTyped L F c.value a ∧ Subtype F a c.type

/-- One declaration of the file `F`. -/
def ItemTyped (L : KotlinLib) (F : List Item) : Item → Prop
  | .interface _ c => CompanionTyped L F c
  | .object _ s => ∃ c, Item.interface s c ∈ F
  | .cls _ isData ps s c => (isData = true → ps ≠ []) ∧ (ps.map (·.1)).Nodup ∧
      (∀ p ∈ ps, KotlinName p.1 ∧ TyOk L (F.map (·.id)) p.2) ∧ (∀ i ∈ s, ∃ c, Item.interface i c ∈ F) ∧
      ∀ d ∈ c, CompanionTyped L F d

/-- The declarations of a file are accepted. -/
structure Typed (L : KotlinLib) (F : List Item) : Prop where
  once : (F.map (·.id)).Nodup
  names : ∀ i ∈ F, KotlinName i.id ∧ i.id ∉ L.others
  items : ∀ i ∈ F, ItemTyped L F i

/-! ### The schemas for which this is the case -/

/-- The classes declared for a schema: structs in Pascal case, and the variants of enums, in Pascal case after the
name of the enum. -/
def classNames (x : ExtF) (S : List ASTNode) : List String :=
  S.flatMap (fun
    | .struct n => [x.pascal n.id]
    | .enum n => n.items.map (fun i => x.pascal (n.id ++ i.id))
    | _ => [])

/-- All names declared for a schema. -/
def declaredNames (x : ExtF) (S : List ASTNode) : List String :=
  S.flatMap (fun
    | .struct n => [x.pascal n.id]
    | .enum n => n.id :: n.items.map (fun i => x.pascal (n.id ++ i.id))
    | _ => [])

/-- A type of the schema exists in Kotlin. -/
inductive TypeExists (L : KotlinLib) (D : List String) : TypeId → Prop
  | builtin {t k} : BuiltinName kotlinNames t k → TypeExists L D t
  | address {id} : IsAddress id → TypeExists L D (.other id)
  | own {id} : id ∈ D → TypeExists L D (.other id)
  | lib {id} : L.types id 0 → TypeExists L D (.other id)
  | list {t} : "List" ∉ D → TypeExists L D t → TypeExists L D (.generic "Vec" [t])
  | generic {c ts} : c ≠ "Vec" → c ∉ D → L.types c ts.length → (∀ t ∈ ts, TypeExists L D t) → TypeExists L D (.generic c ts)

/-- The emitted default value of a field has its type.  `D` are the names declared. -/
inductive HasDefault (L : KotlinLib) (S : List ASTNode) (D : List String) : TypeId → Prop
  | builtin {t k} : BuiltinName kotlinNames t k → (∀ n, t ≠ .char n) → k ∉ D → HasDefault L S D t
  | string : "String" ∉ D → HasDefault L S D (.other "String")
  | own {id} : ¬ IsAddress id → id ≠ "Vec" → id ≠ "String" → Own S id → HasDefault L S D (.other id)
  | lib {id} : ¬ IsAddress id → id ≠ "Vec" → id ≠ "String" → id ∉ D → L.defaults id 0 → HasDefault L S D (.other id)
  | list {ts} : "listOf" ∉ D → HasDefault L S D (.generic "Vec" ts)
  | generic {c ts} : c ≠ "Vec" → L.defaults c ts.length → HasDefault L S D (.generic c ts)

/-- The schemas whose Kotlin models are accepted. -/
structure Fit (L : KotlinLib) (x : ExtF) (S : List ASTNode) : Prop where
  once : (declaredNames x S).Nodup
  names : ∀ n ∈ declaredNames x S, KotlinName n ∧ n ∉ L.others
  fields : ∀ n, .struct n ∈ S → (n.fields.map (fun f => x.camel f.name)).Nodup ∧ ∀ f ∈ n.fields, KotlinName (x.camel f.name)
  variantFields : ∀ n, .enum n ∈ S → ∀ p id fs, EnumItem.struct p id fs ∈ n.items →
    (fs.map (·.name)).Nodup ∧ ∀ f ∈ fs, KotlinName f.name
  /-- no variant is written `A()` or `A {}` -/
  parens : ∀ n, .enum n ∈ S → ∀ i ∈ n.items, ¬ EmptyParens i
  exist : ∀ d ∈ S, ∀ t ∈ directTypes d, TypeExists L (declaredNames x S) t
  /-- structs are in Pascal case, and so is the first variant of an enum after the name of the enum; its fields
  are in camel case -/
  structs : ∀ n, .struct n ∈ S → x.pascal n.id = n.id
  firsts : ∀ n, .enum n ∈ S → ∀ i ∈ n.items.head?, x.pascal (n.id ++ i.id) = n.id ++ i.id ∧
    ∀ p id fs, i = .struct p id fs → ∀ f ∈ fs, x.camel f.name = f.name
  /-- no type is called `GroupAddress` or `CommandsBufferAddress` -/
  own : ∀ id, Own S id → ¬ IsAddress id
  defaults : ∀ d ∈ S, ∀ t ∈ defaulted d, HasDefault L S (declaredNames x S) t

/-- A name that is spelled like a declared class is the name of that class: where names are changed by the
conversion to Pascal or camel case, the original name is not by accident the name of another declaration. -/
structure NoAccidents (x : ExtF) (S : List ASTNode) : Prop where
  structs : ∀ n, .struct n ∈ S → n.id ∈ classNames x S → x.pascal n.id = n.id
  firsts : ∀ n, .enum n ∈ S → ∀ i ∈ n.items.head?, n.id ++ i.id ∈ classNames x S → x.pascal (n.id ++ i.id) = n.id ++ i.id
  fields : ∀ n, .enum n ∈ S → ∀ p id fs, EnumItem.struct p id fs ∈ n.items.head? → ∀ f ∈ fs,
    x.camel f.name ∈ fs.map (·.name) → x.camel f.name = f.name

end Kotlin

/-! ## Swift -/

/-- What a Swift file uses from elsewhere. -/
structure SwiftLib where
  /-- types with so many type parameters -/
  types : String → Nat → Prop
  /-- `C<A, ..>.createDefault()` exists and has the type `C<A, ..>` -/
  defaults : String → Nat → Prop
  /-- the literals among `0`, `false`, `""` and `[]` that are values of a type without parameters -/
  literals : String → List String
  /-- generic types that keep their arguments behind a pointer -/
  boxed : String → Prop
  /-- names of other declarations of the module -/
  others : List String

/-- Swift standard library. -/
structure SwiftLib.Std (L : SwiftLib) : Prop where
  basic : ∀ p ∈ swiftNames, L.types p.2 0
  zero : ∀ p ∈ swiftNames, p.1 ≠ .bool → p.1 ≠ .char → "0" ∈ L.literals p.2
  bool : "false" ∈ L.literals "Bool"
  string : "\"\"" ∈ L.literals "String"

namespace Swift
open TPB.Swift

def _root_.TPB.Swift.Item.id : Item → String
  | .struct id _ _ => id
  | .enum id _ _ => id

def _root_.TPB.Swift.Item.default : Item → Default
  | .struct _ _ d => d
  | .enum _ _ d => d

/-- The members of a type besides `createDefault`: their names hide types in the body of `createDefault`. -/
def _root_.TPB.Swift.Item.members : Item → List String
  | .struct _ fs _ => fs.map (·.1)
  | .enum _ cs _ => cs.map (·.id)

/-- The types of the stored values. -/
def _root_.TPB.Swift.Item.tys : Item → List Ty
  | .struct _ fs _ => fs.map (·.2)
  | .enum _ cs _ => cs.flatMap (fun c => c.params.map (·.2))

/-- The type exists; `D` are the names of the types declared in the file. -/
inductive TyOk (L : SwiftLib) (D : List String) : Ty → Prop
  | own {id} : id ∈ D → TyOk L D (.named id)
  | lib {id} : id ∉ D → L.types id 0 → TyOk L D (.named id)
  | app {c args} : c ∉ D → L.types c args.length → (∀ a ∈ args, TyOk L D a) → TyOk L D (.app c args)
  | array {t} : TyOk L D t → TyOk L D (.array [t])

/-- The expression has the type, in a type with the members `H`. -/
inductive ExprTyped (L : SwiftLib) (F : List Item) (H : List String) : Expr → Ty → Prop
  | lit {s T} : T ∉ F.map (·.id) → s ∈ L.literals T → ExprTyped L F H (.lit s) (.named T)
  | array {t} : ExprTyped L F H .emptyArray (.array [t])
  | literal {T} : T ∉ F.map (·.id) → "[]" ∈ L.literals T → ExprTyped L F H .emptyArray (.named T)
  | own {i} : i ∈ F → i.id ∉ H → ExprTyped L F H (.create i.id) (.named i.default.type)
  | lib {id} : id ∉ F.map (·.id) → id ∉ H → L.defaults id 0 → ExprTyped L F H (.create id) (.named id)
  | generic {c args} : c ∉ F.map (·.id) → c ∉ H → L.defaults c args.length →
      (∀ a ∈ args, TyOk L (F.map (·.id)) a) → ExprTyped L F H (.createGeneric c args) (.app c args)

/-- The value that `createDefault` returns: an initializer call with all fields in order, or a case of the enum
that is the type of the result. -/
inductive NewTyped (L : SwiftLib) (F : List Item) (H : List String) : New → String → Prop
  | inst {id fs d as} : Item.struct id fs d ∈ F → id ∉ H →
      Each (fun (a : Arg) (f : String × Ty) => ∃ e, a = .labelled f.1 e ∧ ExprTyped L F H e f.2) as fs →
      NewTyped L F H (.inst id as) id
  | case {e cs d id} : Item.enum e cs d ∈ F → ⟨id, []⟩ ∈ cs → NewTyped L F H (.case id) e
  | caseOf {e cs d id ps as} : Item.enum e cs d ∈ F → ⟨id, ps⟩ ∈ cs → ps ≠ [] →
      Each (fun (a : Arg) (p : Option String × Ty) => ∃ e, Arg.unlabelled a = some e ∧ ExprTyped L F H e p.2) as ps →
      NewTyped L F H (.caseOf id as) e

/-- The types of which a value directly contains a value. -/
inductive Contains (L : SwiftLib) : Ty → String → Prop
  | named {id} : Contains L (.named id) id
  | arg {c args a id} : ¬ L.boxed c → a ∈ args → Contains L a id → Contains L (.app c args) id

/-- Names of cases that have another meaning. -/
def caseReserved : List String := ["createDefault", "Type", "Protocol"]

/-- One declaration of the file `F`. -/
structure ItemTyped (L : SwiftLib) (F : List Item) (i : Item) : Prop where
  name : SwiftName i.id ∧ i.id ∉ L.others
  members : i.members.Nodup ∧ ∀ m ∈ i.members, SwiftName m
  cases : ∀ id cs d, i = .enum id cs d → ∀ m ∈ i.members, m ∉ caseReserved
  tys : ∀ t ∈ i.tys, TyOk L (F.map (·.id)) t
  default : NewTyped L F i.members i.default.value i.default.type

/-- The declarations of a file are accepted. -/
structure Typed (L : SwiftLib) (F : List Item) : Prop where
  once : (F.map (·.id)).Nodup
  items : ∀ i ∈ F, ItemTyped L F i
  /-- no type contains itself without a pointer in between -/
  sized : ∃ rank : String → Nat, ∀ i ∈ F, ∀ t ∈ i.tys, ∀ id, Contains L t id → id ∈ F.map (·.id) → rank id < rank i.id

/-! ### The schemas for which this is the case -/

/-- All names declared for a schema. -/
def declaredNames (x : ExtF) (S : List ASTNode) : List String := (typeNames S).map x.pascal

/-- The members declared for a declaration. -/
def memberNames (x : ExtF) : ASTNode → List String
  | .struct n => n.fields.map (fun f => x.camel f.name)
  | .enum n => n.items.map (fun i => x.camel i.id)
  | _ => []

/-- A type of the schema exists in Swift; characters are written `char`. -/
inductive TypeExists (L : SwiftLib) (D : List String) : TypeId → Prop
  | builtin {t k} : BuiltinName swiftNames t k → (∀ n, t ≠ .char n) → TypeExists L D t
  | char {n} : "char" ∈ D ∨ L.types "char" 0 → TypeExists L D (.char n)
  | address {id} : IsAddress id → TypeExists L D (.other id)
  | own {id} : id ∈ D → TypeExists L D (.other id)
  | lib {id} : L.types id 0 → TypeExists L D (.other id)
  | list {t} : TypeExists L D t → TypeExists L D (.generic "Vec" [t])
  | generic {c ts} : c ≠ "Vec" → c ∉ D → L.types c ts.length → (∀ t ∈ ts, TypeExists L D t) → TypeExists L D (.generic c ts)

/-- The emitted default value of a field has its type, in a type with the members `H`. -/
inductive HasDefault (L : SwiftLib) (S : List ASTNode) (D H : List String) : TypeId → Prop
  | builtin {t k} : BuiltinName swiftNames t k → (∀ n, t ≠ .char n) → k ∉ D → HasDefault L S D H t
  | char {n} : "char" ∉ D → "0" ∈ L.literals "char" → HasDefault L S D H (.char n)
  | string : "String" ∉ D → HasDefault L S D H (.other "String")
  | vec : "Vec" ∉ D → "[]" ∈ L.literals "Vec" → HasDefault L S D H (.other "Vec")
  | own {id} : ¬ IsAddress id → id ≠ "Vec" → id ≠ "String" → id ∉ H → Own S id → HasDefault L S D H (.other id)
  | lib {id} : ¬ IsAddress id → id ≠ "Vec" → id ≠ "String" → id ∉ H → id ∉ D → L.defaults id 0 →
      HasDefault L S D H (.other id)
  | list {ts} : HasDefault L S D H (.generic "Vec" ts)
  | generic {c ts} : c ≠ "Vec" → c ∉ H → L.defaults c ts.length → HasDefault L S D H (.generic c ts)

/-- A value of the type directly contains a value of the type that is written with the name. -/
inductive ContainsType (L : SwiftLib) : TypeId → String → Prop
  | builtin {t k} : BuiltinName namesWithChar t k → ContainsType L t k
  | address {id} : IsAddress id → ContainsType L (.other id) "UInt64"
  | other {id} : ¬ IsAddress id → ContainsType L (.other id) id
  | arg {c ts t id} : c ≠ "Vec" → ¬ L.boxed c → t ∈ ts → ContainsType L t id → ContainsType L (.generic c ts) id

/-- The schemas whose Swift models are accepted. -/
structure Fit (L : SwiftLib) (x : ExtF) (S : List ASTNode) : Prop where
  once : (declaredNames x S).Nodup
  names : ∀ n ∈ declaredNames x S, SwiftName n ∧ n ∉ L.others
  members : ∀ d ∈ S, (memberNames x d).Nodup ∧ ∀ m ∈ memberNames x d, SwiftName m
  cases : ∀ n, .enum n ∈ S → ∀ i ∈ n.items, x.camel i.id ∉ caseReserved
  exist : ∀ d ∈ S, ∀ t ∈ directTypes d, TypeExists L (declaredNames x S) t
  /-- types are in Pascal case -/
  spelled : ∀ id, Own S id → x.pascal id = id ∧ ¬ IsAddress id
  /-- no struct has a field of its own name -/
  hidden : ∀ n, .struct n ∈ S → n.id ∉ memberNames x (.struct n)
  /-- the first variant is not written `A()` or `A {}` -/
  parens : ∀ n, .enum n ∈ S → ∀ i ∈ n.items.head?, ¬ EmptyParens i
  defaults : ∀ d ∈ S, ∀ t ∈ defaulted d, HasDefault L S (declaredNames x S) (memberNames x d) t
  /-- no type contains itself without an array in between -/
  sized : ∃ rank : String → Nat, ∀ d ∈ S, ∀ name, declName d = some name → ∀ t ∈ directTypes d, ∀ id,
    ContainsType L t id → id ∈ declaredNames x S → rank id < rank name

/-- A name that is spelled like a declared type is the name of that type; and no type is called `UInt64` where
`createDefault` of a type called like an address has it in its place. -/
structure NoAccidents (x : ExtF) (S : List ASTNode) : Prop where
  types : ∀ id, Own S id → id ∈ declaredNames x S → x.pascal id = id
  address : "UInt64" ∈ declaredNames x S → ∀ id, Own S id → ¬ IsAddress id

end Swift

end TPB.Spec
