/-
The rules that generated constants must follow for the Rust and Dart compilers to accept them, stated
on what a text declares (`readRust`, `readDart` of `Spec/Consts.lean`), and the condition on a schema
that should be equivalent.

Rust: items of a module have different names (constants and modules live in different name spaces), no
keyword names anything, a literal must have the declared type and lie in its range (a literal out of
range is an error by default), there is no literal of type `String` or `char` among those that are
emitted, and a name of the runtime library is found unless a module of the same name is nearer.

Dart: no name is declared twice in one scope, no reserved word is a name, a member may not have the
name of a type that is used in its class, and a literal must be assignable to the declared type (an
integer literal is assignable to `double`).
-/
import Verif.Spec.Consts
import Verif.Spec.RustTyping
import Verif.Spec.DartTyping
namespace TPB.Spec

/-! ### Rust -/

/-- The modules declared by statements standing in the modules `path`, as paths, in text order. -/
def readRustModsFrom : List String → List Stmt → Option (List (List String))
  | path, [] => if path = [] then some [] else none
  | path, (ts, e) :: rest =>
    if e = '{' then
      match readRustMod ts with
      | some name => ((path ++ [name]) :: ·) <$> readRustModsFrom (path ++ [name]) rest
      | none => none
    else if e = '}' then
      if ts = [] ∧ path ≠ [] then readRustModsFrom path.dropLast rest else none
    else readRustModsFrom path rest

/-- The modules declared by a Rust text. -/
def readRustMods (text : String) : Option (List (List String)) := (stmts text).bind (readRustModsFrom [])

/-- What is taken from elsewhere: the number of bits of a pointer, and the types of the only field of the
runtime library's address types. -/
structure ConstLib where
  pointer : Nat
  field : String → Option String

/-- The integer types of Rust, with the number of bits that a non-negative value may use. -/
def rustIntegers (pointer : Nat) : List (String × Nat) :=
  [("i8", 7), ("i16", 15), ("i32", 31), ("i64", 63), ("i128", 127), ("isize", pointer - 1),
   ("u8", 8), ("u16", 16), ("u32", 32), ("u64", 64), ("u128", 128), ("usize", pointer)]

/-- A literal has a Rust type that is a single name. -/
def RustLitOk (K : ConstLib) (T : String) : Literal → Prop
  | .int v => ∃ bits, (rustIntegers K.pointer).lookup T = some bits ∧ 0 ≤ v ∧ v < 2 ^ bits
  | .num _ => T = "f32" ∨ T = "f64"
  | .bool _ => T = "bool"
  | .str _ => False

/-- `pub const NAME: TYPE = VALUE` is accepted among the modules `ms`. -/
def RustConstOk (K : ConstLib) (ms : List (List String)) (r : RustConst) : Prop :=
  match r.ctor with
  | none => ∃ T, r.type = [.word T] ∧ RustLitOk K T r.value
  | some c => r.type = c ∧ ∃ a T, c = runtimeToks a ∧ K.field a = some T ∧ RustLitOk K T r.value ∧
      r.path ++ ["tech_paws_runtime"] ∉ ms

/-- The constants and modules of a text are accepted. -/
structure RustConstsTyped (K : ConstLib) (rs : List RustConst) (ms : List (List String)) : Prop where
  consts : (rs.map (fun r => (r.path, r.name))).Nodup
  modules : ms.Nodup
  names : ∀ r ∈ rs, RustName r.name
  moduleNames : ∀ m ∈ ms, ∀ n ∈ m.getLast?, RustName n
  values : ∀ r ∈ rs, RustConstOk K ms r

/-! ### The schemas -/

/-- A literal suits the declared type of a constant in Rust. -/
def SuitsRust (K : ConstLib) : TypeId → Literal → Prop
  | .integer _ size signed, .int v => 0 ≤ v ∧ v < 2 ^ (8 * size - if signed then 1 else 0)
  | .number _ _, .num _ => True
  | .bool _, .bool _ => True
  | .other n, l =>
    if n = "GroupAddress" ∨ n = "CommandsBufferAddress" then ∃ T, K.field n = some T ∧ RustLitOk K T l
    else RustLitOk K n l
  | _, _ => False

/-- The constants of a schema are acceptable in Rust; literals count as they are printed. -/
structure RustConstSchema (K : ConstLib) (x : Ext) (S : List ASTNode) : Prop where
  consts : ((schemaConsts S).map (fun c => (c.path, c.name))).Nodup
  blocks : (schemaBlocks S).Nodup
  names : ∀ c ∈ schemaConsts S, RustName c.name
  blockNames : ∀ p ∈ schemaBlocks S, ∀ n ∈ p.getLast?, RustName n
  values : ∀ c ∈ schemaConsts S, SuitsRust K c.type (printed x c.value)
  runtime : ∀ c ∈ schemaConsts S, (isAddress c.type).isSome → c.path ++ ["tech_paws_runtime"] ∉ schemaBlocks S

/-! ### Dart -/

/-- A literal is assignable to a Dart type; `other` says which further types take which literals. -/
def DartLitOk (other : List Tok → Literal → Prop) (T : List Tok) : Literal → Prop
  | .int v => T = [.word "int"] ∨ T = [.word "double"] ∨ other T (.int v)
  | .num t => T = [.word "double"] ∨ other T (.num t)
  | .bool b => T = [.word "bool"] ∨ other T (.bool b)
  | .str s => T = [.word "String"] ∨ other T (.str s)

/-- The members that every Dart class has. -/
def objectMembers : List String := ["hashCode", "runtimeType", "toString", "noSuchMethod"]

/-- A member of a class of constants is accepted among the names `ns` of the members of its class and
the classes `cs` of the library. -/
def DartMemberOk (other : List Tok → Literal → Prop) (cs ns : List String) : DartMember → Prop
  | .value _ T l => DartLitOk other T l ∧ ∀ n, .word n ∈ T → n ∉ ns
  | .child _ c => c ∈ cs ∧ c ∉ ns

/-- The library constants and classes of a text are accepted. -/
structure DartConstsTyped (other : List Tok → Literal → Prop) (L : DartLibrary) : Prop where
  distinct : L.Distinct
  /-- library constants and classes share a name space -/
  apart : ∀ v ∈ L.vars, v.1 ∉ L.classes.map (·.name)
  varNames : ∀ v ∈ L.vars, DartRules.DartName v.1
  vars : ∀ v ∈ L.vars, v.2 ∈ L.classes.map (·.name)
  classNames : ∀ c ∈ L.classes, DartRules.DartTypeName c.name
  memberNames : ∀ c ∈ L.classes, ∀ m ∈ c.members, DartRules.DartName m.name ∧ m.name ≠ c.name ∧ m.name ∉ objectMembers
  members : ∀ c ∈ L.classes, ∀ m ∈ c.members,
    DartMemberOk other (L.classes.map (·.name)) (c.members.map (·.name)) m

/-! ### The schemas, for Dart -/

mutual
/-- The blocks in one member of a block: the path of every block, with its members. -/
def itemMembers (path : List String) : ConstItem → List (List String × List ConstItem)
  | .value _ _ _ => []
  | .node name items => (path ++ [name], items) :: itemsMembers (path ++ [name]) items
def itemsMembers (path : List String) : List ConstItem → List (List String × List ConstItem)
  | [] => []
  | i :: is => itemMembers path i ++ itemsMembers path is
end

/-- All constant blocks of a schema with their members, in source order. -/
def schemaMembers (S : List ASTNode) : List (List String × List ConstItem) :=
  S.flatMap (fun | .const n => itemMembers [] (.node n.id n.items) | _ => [])

/-- The names of the outermost blocks. -/
def outerBlocks (S : List ASTNode) : List String := S.flatMap (fun | .const n => [n.id] | _ => [])

def _root_.TPB.ConstItem.itemName : ConstItem → String
  | .value n _ _ => n
  | .node n _ => n

/-- The class of a block: an underscore and the names of its path in upper camel case, run together. -/
def blockClass (x : Ext) (p : List String) : String := p.foldl (fun a n => a ++ x.pascal n) "_"

/-- The names of blocks and constants are identifiers after the change of case, and do not begin with an
underscore. -/
structure CaseOk (x : Ext) (S : List ASTNode) : Prop where
  blocks : ∀ p ∈ schemaBlocks S, ∀ n ∈ p,
    IsIdent (x.camel n).toList ∧ DartRules.Public (x.camel n) ∧ Wordy (x.pascal n)
  consts : ∀ c ∈ schemaConsts S, IsIdent (x.camel c.name).toList ∧ DartRules.Public (x.camel c.name)

/-- The constants of a schema are acceptable in Dart; literals count as they are printed. -/
structure DartConstSchema (other : List Tok → Literal → Prop) (x : Ext) (S : List ASTNode) : Prop where
  outer : ((outerBlocks S).map x.camel).Nodup
  classes : ((schemaMembers S).map (fun b => blockClass x b.1)).Nodup
  members : ∀ b ∈ schemaMembers S, (b.2.map (fun i => x.camel i.itemName)).Nodup
  outerNames : ∀ n ∈ outerBlocks S, x.camel n ∉ DartRules.dartReserved
  memberNames : ∀ b ∈ schemaMembers S, ∀ i ∈ b.2,
    x.camel i.itemName ∉ DartRules.dartReserved ∧ x.camel i.itemName ∉ objectMembers
  values : ∀ b ∈ schemaMembers S, ∀ n t v, .value n t v ∈ b.2 → DartLitOk other (dartConstType t) (printed x v.literal)
  /-- no constant or block has the name of a type used in the same block -/
  types : ∀ b ∈ schemaMembers S, ∀ n t v, .value n t v ∈ b.2 → ∀ w, .word w ∈ dartConstType t →
    ∀ i ∈ b.2, x.camel i.itemName ≠ w

end TPB.Spec
