/-
A type checker's view of the emitted Rust declarations and `impl` blocks: when rustc accepts them, as far as
names and types go.  It speaks about the trees of `Sem/RustIR.lean`, whose text is the generated file, and
about the imported crates through `Crates` only.

Covered: resolution of names, clashes of names, keywords, types of all expressions, literals that fit,
completeness of struct literals, patterns and matches, types of finite size.  Not covered: borrow checking
(the emitted code holds no references across statements), trait bounds of the imported types (they are
assumed to implement the traits), lints.
-/
import Verif.Sem.RustIR
import Verif.Sem.Each
import Verif.Spec.Dart
import Verif.Spec.Idents
namespace TPB.Spec
open Rust

/-- Words that Rust does not accept as names (reference, section Keywords). -/
def rustKeywords : List String :=
  ["as", "break", "const", "continue", "crate", "else", "enum", "extern", "false", "fn", "for", "if", "impl", "in",
   "let", "loop", "match", "mod", "move", "mut", "pub", "ref", "return", "self", "Self", "static", "struct", "super",
   "trait", "true", "type", "unsafe", "use", "where", "while", "async", "await", "dyn",
   "abstract", "become", "box", "do", "final", "macro", "override", "priv", "try", "typeof", "unsized", "virtual",
   "yield", "_"]

def RustName (n : String) : Prop := isIdent n = true ∧ n ∉ rustKeywords

/-- What the file uses from elsewhere. -/
structure Crates where
  /-- types that can be used in fields: they implement `IntoVMBuffers`, `Default`, `Debug`, `Clone`, `PartialEq` -/
  types : String → Prop
  /-- the same for generic types with the given number of arguments -/
  generics : String → Nat → Prop
  /-- generic types that keep their arguments behind a pointer, like `Vec` -/
  boxed : String → Prop
  /-- names in the file besides the emitted types: imports and modules -/
  others : List String

/-- Names that the emitted code itself takes from the prelude: `impl Default for`, `count: u64`. -/
def preludeNames : List String := ["Default", "u64"]

/-- The type exists; `D` are the types declared in the file, `I` those among them that implement the trait. -/
inductive Implements (L : Crates) (D I : List String) : Ty → Prop
  | own (id : String) : id ∈ D → id ∈ I → Implements L D I (.named id)
  | builtin (id : String) : id ∉ D → (builtinTypes.lookup id).isSome → Implements L D I (.named id)
  | lib (id : String) : id ∉ D → L.types id → Implements L D I (.named id)
  | app (c : String) (args : List Ty) : c ∉ D → L.generics c args.length → (∀ a ∈ args, Implements L D I a) →
      Implements L D I (.app c args)

/-- The built-in type that the name `m` stands for, if it is not the name of a declared type. -/
def Builtin (D : List String) (m : String) (t : TypeId) : Prop := m ∉ D ∧ builtinTypes.lookup m = some t

/-- `bytes_reader.read_m()` and `T::read_from_buffers(bytes_reader)`. -/
inductive ReadTyped (L : Crates) (D I : List String) : ReadE → Ty → Prop
  | prim (m : String) (t : TypeId) : Builtin D m t → ReadTyped L D I (.prim m) (.named m)
  | path (t : Ty) : Implements L D I t → ReadTyped L D I (.path t) t

/-- `0`, `0.0`, `false` and `T::default()`. -/
inductive DefTyped (L : Crates) (D : List String) : DefE → Ty → Prop
  | zero (m i : String) (size : Nat) (s : Bool) : Builtin D m (.integer i size s) → DefTyped L D .zero (.named m)
  | zeroF (m i : String) (size : Nat) : Builtin D m (.number i size) → DefTyped L D .zeroF (.named m)
  | no (m i : String) : Builtin D m (.bool i) → DefTyped L D .no (.named m)
  | call (t : Ty) : Implements L D D t → DefTyped L D (.call t) t

/-- `{ n: e, .. }` for the declared fields `fs`: each exactly once, with its type. -/
structure RecordTyped {α : Type} (T : α → Ty → Prop) (fs : List (String × Ty)) (es : List (String × α)) : Prop where
  once : (es.map (·.1)).Nodup
  all : ∀ f ∈ fs, f.1 ∈ es.map (·.1)
  typed : ∀ e ∈ es, ∃ t, (e.1, t) ∈ fs ∧ T e.2 t

/-- The payload of a variant in an expression. -/
inductive PayloadTyped {α : Type} (T : α → Ty → Prop) : Payload Ty → Payload α → Prop
  | unit : PayloadTyped T .unit .unit
  | tuple (ts : List Ty) (es : List α) : Each T es ts → PayloadTyped T (.tuple ts) (.tuple es)
  | named (fs : List (String × Ty)) (es : List (String × α)) : RecordTyped T fs es → PayloadTyped T (.named fs) (.named es)

/-- The literal `k` is a value of the type that `read_m` returns and `write_m` takes. -/
def LiteralFitsMethod (m : String) (k : Nat) : Prop :=
  ∃ i size, builtinTypes.lookup m = some (.integer i size false) ∧ k < 2 ^ (8 * size)

/-- `bytes_writer.write_m(place);`, `bytes_writer.write_m(k);` and `place.write_to_buffers(bytes_writer);` where
the places have the given types. -/
inductive WriteTyped (L : Crates) (D I : List String) (places : List (Acc × Ty)) : WriteS → Prop
  | place (m : String) (a : Acc) (t : TypeId) : Builtin D m t → (a, .named m) ∈ places → WriteTyped L D I places (.prim m a)
  | lit (m : String) (k : Nat) : LiteralFitsMethod m k → WriteTyped L D I places (.prim m (.lit k))
  | call (a : Acc) (t : Ty) : (a, t) ∈ places → Implements L D I t → WriteTyped L D I places (.call a)

/-- The parts that a type declaration has: its field types. -/
def fieldTys : Payload Ty → List Ty
  | .unit => []
  | .tuple ts => ts
  | .named fs => fs.map (·.2)

def declTys : Decl → List Ty
  | .struct _ fs => fs.map (·.2)
  | .enum _ vs => vs.flatMap (fun v => fieldTys v.2)

def payloadNames : Payload Ty → List String
  | .named fs => fs.map (·.1)
  | _ => []

/-- A declaration by itself: names are names, and no two are equal; all types exist. -/
def DeclTyped (L : Crates) (D : List String) (d : Decl) : Prop :=
  RustName d.id ∧ (∀ t ∈ declTys d, Implements L D D t) ∧
  match d with
  | .struct _ fs => (fs.map (·.1)).Nodup ∧ ∀ f ∈ fs, RustName f.1
  | .enum _ vs => (vs.map (·.1)).Nodup ∧ ∀ v ∈ vs, RustName v.1 ∧ (payloadNames v.2).Nodup ∧ ∀ n ∈ payloadNames v.2, RustName n

/-- The value that `default` returns. -/
def DefaultTyped (L : Crates) (D : List String) : Decl → DefBody → Prop
  | .struct _ [], .unit => True
  | .struct _ fs, .selfLit es => RecordTyped (DefTyped L D) fs es
  | .enum _ vs, .variant v p => ∃ q, (v, q) ∈ vs ∧ PayloadTyped (DefTyped L D) q p
  | _, _ => False

/-- The types of which a value directly contains a value. -/
inductive ContainsTy (L : Crates) : Ty → String → Prop
  | named (id : String) : ContainsTy L (.named id) id
  | arg (c : String) (args : List Ty) (a : Ty) (id : String) : ¬ L.boxed c → a ∈ args → ContainsTy L a id → ContainsTy L (.app c args) id

/-- `fn read_from_buffers(bytes_reader) -> Self` for the declared type `d`. -/
def ReadBodyTyped (L : Crates) (D I : List String) (d : Decl) : ReadBody → Prop
  | .unit id => id = d.id ∧ d = .struct d.id []
  | .selfLit es => ∃ fs, d = .struct d.id fs ∧ RecordTyped (ReadTyped L D I) fs es
  | .matchTag tag enumId arms => enumId = d.id ∧ ∃ vs m, d = .enum d.id vs ∧ tag = .prim m ∧
      ∀ a ∈ arms, LiteralFitsMethod m a.1 ∧ ∃ q, (a.2.1, q) ∈ vs ∧ PayloadTyped (ReadTyped L D I) q a.2.2

/-- The types of the names that a pattern binds: all fields of the variant. -/
inductive Binds : Payload Ty → Payload Unit → List String → List (Acc × Ty) → Prop
  | unit : Binds .unit .unit [] []
  | tuple (ts : List Ty) (xs : List String) : xs.length = ts.length →
      Binds (.tuple ts) (.tuple []) xs ((xs.zip ts).map (fun p => (.var p.1, p.2)))
  | named (fs : List (String × Ty)) (xs : List String) : (∀ x, x ∈ xs ↔ x ∈ fs.map (·.1)) →
      Binds (.named fs) (.named []) xs (fs.map (fun f => (.var f.1, f.2)))

/-- `fn write_to_buffers(&self, bytes_writer)` for the declared type `d`; `U` are the unit structs of the file,
whose names cannot be bound. -/
def WriteBodyTyped (L : Crates) (D I U : List String) (d : Decl) : WriteBody → Prop
  | .nop => True
  | .stmts ss => ∃ fs, d = .struct d.id fs ∧ ∀ s ∈ ss, WriteTyped L D I (fs.map (fun f => (.field f.1, f.2))) s
  | .matchSelf enumId arms => enumId = d.id ∧ ∃ vs, d = .enum d.id vs ∧ (∀ v ∈ vs, v.1 ∈ arms.map (·.1)) ∧
      ∀ a ∈ arms, ∃ q places, (a.1, q) ∈ vs ∧ Binds q a.2.1 a.2.2.1 places ∧ a.2.2.1.Nodup ∧
        (∀ x ∈ a.2.2.1, RustName x ∧ x ∉ U ∧ x ≠ "bytes_writer") ∧ ∀ s ∈ a.2.2.2, WriteTyped L D I places s

/-- `fn skip_in_buffers(bytes_reader, count)`. -/
def SkipBodyTyped (L : Crates) (D I : List String) : SkipBody → Prop
  | .nop => True
  | .loop es => ∀ e ∈ es, ∃ t, ReadTyped L D I e t
  | .loopMatch tag arms => ∃ m, tag = .prim m ∧
      ∀ a ∈ arms, LiteralFitsMethod m a.1 ∧ ∀ es, a.2 = some es → ∀ e ∈ es, ∃ t, ReadTyped L D I e t

/-- The unit structs of a file. -/
def unitStructs (items : List TypeItem) : List String :=
  items.filterMap (fun i => match i.decl with | .struct id [] => some id | _ => none)

/-- The parameters and local variables of the functions of an `impl` block. -/
def _root_.TPB.Rust.ReadBody.locals : ReadBody → List String
  | .unit _ => []
  | .selfLit _ => ["bytes_reader"]
  | .matchTag _ _ _ => ["bytes_reader", "value"]

def _root_.TPB.Rust.WriteBody.locals : WriteBody → List String
  | .nop => []
  | _ => ["bytes_writer"]

def _root_.TPB.Rust.SkipBody.locals : SkipBody → List String
  | .nop => []
  | .loop _ => ["bytes_reader", "count"]
  | .loopMatch _ _ => ["bytes_reader", "count", "value"]

/-- The declarations and `impl` blocks of a file are accepted. -/
structure RustTyped (L : Crates) (items : List TypeItem) (impls : List Impl) : Prop where
  /-- no two types with one name, and no type with a name that the file uses for something else -/
  once : (items.map (·.decl.id)).Nodup
  fresh : ∀ i ∈ items, i.decl.id ∉ preludeNames ++ L.others
  decls : ∀ i ∈ items, DeclTyped L (items.map (·.decl.id)) i.decl
  defaults : ∀ i ∈ items, DefaultTyped L (items.map (·.decl.id)) i.decl i.default
  /-- no type contains itself without a pointer in between -/
  sized : ∃ rank : String → Nat, ∀ i ∈ items, ∀ t ∈ declTys i.decl, ∀ id, ContainsTy L t id → id ∈ items.map (·.decl.id) → rank id < rank i.decl.id
  /-- one implementation for each type -/
  implOnce : (impls.map (·.id)).Nodup
  bodies : ∀ m ∈ impls, ∃ i ∈ items, i.decl.id = m.id ∧
    ReadBodyTyped L (items.map (·.decl.id)) (impls.map (·.id)) i.decl m.read ∧
    WriteBodyTyped L (items.map (·.decl.id)) (impls.map (·.id)) (unitStructs items) i.decl m.write ∧
    SkipBodyTyped L (items.map (·.decl.id)) (impls.map (·.id)) m.skip
  /-- a name of a unit struct cannot be bound -/
  locals : ∀ m ∈ impls, ∀ x ∈ m.read.locals ++ m.write.locals ++ m.skip.locals, x ∉ unitStructs items

/-! ### The schemas for which this is the case -/

/-- A type of the schema exists. -/
inductive TypeExists (L : Crates) (S : List ASTNode) : TypeId → Prop
  | own (id : String) : id ∈ typeNames S → TypeExists L S (.other id)
  | builtin (t : TypeId) (id : String) : builtin? t = some id → TypeExists L S t
  | lib (id : String) : L.types id → TypeExists L S (.other id)
  | generic (c : String) (gs : List TypeId) : c ∉ typeNames S → L.generics c gs.length → (∀ g ∈ gs, TypeExists L S g) →
      TypeExists L S (.generic c gs)

/-- A value of the type directly contains a value of the named type. -/
inductive ContainsType (L : Crates) : TypeId → String → Prop
  | named (id : String) : ContainsType L (.other id) id
  | builtin (t : TypeId) (id : String) : builtin? t = some id → ContainsType L t id
  | arg (c : String) (gs : List TypeId) (g : TypeId) (id : String) : ¬ L.boxed c → g ∈ gs → ContainsType L g id →
      ContainsType L (.generic c gs) id

/-- Structs without fields. -/
def emptyStructs (S : List ASTNode) : List String :=
  S.filterMap (fun | .struct n => if n.fields = [] then some n.id else none | _ => none)

/-- The names by which the fields of a variant are bound in a pattern. -/
def boundNames : EnumItem → List String
  | .empty _ _ => []
  | .tuple _ _ vs => (List.range vs.length).map (fun i => "v" ++ toString i)
  | .struct _ _ fs => fs.map (·.name)

/-- The schemas whose Rust code type-checks. -/
structure RustTypable (L : Crates) (S : List ASTNode) : Prop where
  types : (typeNames S).Nodup
  fresh : ∀ id ∈ typeNames S, RustName id ∧ id ∉ preludeNames ++ L.others
  fields : ∀ n, .struct n ∈ S → ((fieldsOf n).map (·.1)).Nodup ∧ ∀ f ∈ fieldsOf n, RustName f.1
  variants : ∀ n, .enum n ∈ S → (n.items.map (·.id)).Nodup ∧ ∀ i ∈ n.items, RustName i.id
  /-- field names of variants: they are bound in patterns, next to the name `bytes_writer` -/
  bound : ∀ n, .enum n ∈ S → ∀ i ∈ n.items, (boundNames i).Nodup ∧
    ∀ x ∈ boundNames i, RustName x ∧ x ∉ emptyStructs S ∧ x ≠ "bytes_writer"
  numbers : ∀ n, .enum n ∈ S → ∀ i ∈ n.items, i.position < 2 ^ 32
  exist : ∀ d ∈ S, ∀ t ∈ directTypes d, TypeExists L S t
  /-- built-in types of fields are not hidden by declared types -/
  builtins : ∀ d ∈ S, ∀ t ∈ directTypes d, ∀ id, builtin? t = some id → id ∉ typeNames S
  noChar : ∀ n, .struct n ∈ S → ∀ f ∈ fieldsOf n, ∀ c, f.2 ≠ .char c
  noCharFirst : ∀ n, .enum n ∈ S → ∀ i, n.items.head? = some i → ∀ f ∈ payload i, ∀ c, f.2 ≠ .char c
  sized : ∃ rank : String → Nat, ∀ d ∈ S, ∀ name, declName d = some name → ∀ t ∈ directTypes d, ∀ id,
    ContainsType L t id → id ∈ typeNames S → rank id < rank name
  /-- no struct without fields is called like a variable of the emitted functions -/
  localsStruct : (∃ n, .struct n ∈ S ∧ n.fields ≠ []) → ∀ x ∈ ["bytes_reader", "bytes_writer", "count"], x ∉ emptyStructs S
  localsEnum : (∃ n, .enum n ∈ S) → ∀ x ∈ ["bytes_reader", "bytes_writer", "count", "value"], x ∉ emptyStructs S

end TPB.Spec
