/-
A type checker's view of the emitted Dart model classes and codec classes: when the Dart compiler accepts
them, as far as names and types go.  It speaks about the trees of `Sem/DartIR.lean`, whose text is the
generated file, and about the imported libraries through `DartLib` only.

Covered: resolution of names through local, class and file scope, clashes of names, reserved words, members
of `Object` and of enumerations, types of all expressions, complete constructor calls, initialised fields.
Not covered: null safety beyond initialisation (no emitted type is nullable), constant evaluation, lints,
declared classes that hide names of imports that the emitted code does not use.  A parameter that hides
the member that a method assigns counts as an error, also where the types happen to fit.

The second half says in terms of the schema when the rules are met.
-/
import Verif.Sem.DartIR
import Verif.Spec.Dart
import Verif.Spec.Idents
namespace TPB.Spec.DartRules
open Dart

/-- Words that are never names. -/
def dartReserved : List String :=
  ["assert", "break", "case", "catch", "class", "const", "continue", "default", "do", "else", "enum", "extends", "false",
   "final", "finally", "for", "if", "in", "is", "new", "null", "rethrow", "return", "super", "switch", "this", "throw",
   "true", "try", "var", "void", "while", "with"]

/-- Words that are not names of types. -/
def dartBuiltIn : List String :=
  ["abstract", "as", "covariant", "deferred", "dynamic", "export", "extension", "external", "factory", "Function", "get",
   "implements", "import", "interface", "late", "library", "mixin", "operator", "part", "required", "set", "static",
   "typedef"]

def DartName (n : String) : Prop := isIdent n = true ∧ n ∉ dartReserved
def DartTypeName (n : String) : Prop := isIdent n = true ∧ n ∉ dartReserved ++ dartBuiltIn

/-- Names with an underscore in front are private; they cannot be named parameters. -/
def Public (n : String) : Prop := n.toList.head? ≠ some '_'

/-- What the file uses from elsewhere, besides the core types and the list codecs. -/
structure DartLib where
  /-- types, with the number of their parameters -/
  types : String → Nat → Prop
  /-- `XIntoBuffers` or `XEmplaceToBuffers` is a codec of `X` -/
  codecs : Kind → String → Prop
  genericCodecs : Kind → String → Nat → Prop
  /-- `XBuffersFactory` is a factory of `X` -/
  factories : String → Prop
  genericFactories : String → Nat → Prop
  /-- `const XIntoBuffers()` can be passed as a codec of the type -/
  elements : String → Ty → Prop

/-! ### The file -/

def structsOf (items : List ClassItem) : List StructClass :=
  items.flatMap (fun | .struct c => [c] | .enum _ vs => vs)

def enumsOf (items : List ClassItem) : List EnumClass :=
  items.filterMap (fun | .struct _ => none | .enum c _ => some c)

/-- The classes and enumerations declared in the file. -/
def declaredNames (items : List ClassItem) (codecs : List CodecClass) : List String :=
  (structsOf items).flatMap (fun c => [c.id, c.id ++ "BuffersFactory"])
    ++ (enumsOf items).flatMap (fun c => [c.id, c.id ++ "Value", c.id ++ "BuffersFactory"])
    ++ codecs.map (fun c => c.id ++ c.body.kind.suffix)

structure DartFile where
  names : List String
  structs : List StructClass
  enums : List EnumClass
  codecs : List CodecClass

def dartFile (items : List ClassItem) (codecs : List CodecClass) : DartFile :=
  ⟨declaredNames items codecs, structsOf items, enumsOf items, codecs⟩

/-! ### Types, and the names that an expression mentions -/

inductive TypeTyped (L : DartLib) (D : List String) : Ty → Prop
  | own (id : String) : id ∈ D → TypeTyped L D (.named id)
  | core (id : String) : id ∈ ["int", "double", "bool"] → id ∉ D → TypeTyped L D (.named id)
  | lib (id : String) : L.types id 0 → id ∉ D → TypeTyped L D (.named id)
  | list (t : Ty) : "List" ∉ D → TypeTyped L D t → TypeTyped L D (.app "List" [t])
  | app (c : String) (args : List Ty) : L.types c args.length → c ∉ D → (∀ a ∈ args, TypeTyped L D a) →
      TypeTyped L D (.app c args)

mutual
def _root_.TPB.Dart.Ty.names : Ty → List String
  | .named id => [id]
  | .app id args => id :: tysNames args
def tysNames : List Ty → List String
  | [] => []
  | t :: ts => t.names ++ tysNames ts
end

def _root_.TPB.Dart.Codec.names : Codec → List String
  | .plain k b => [b ++ k.suffix]
  | .generic k b args => (b ++ k.suffix) :: tysNames args
  | .list k a e => ("List" ++ k.suffix) :: (e ++ "IntoBuffers") :: a.names

/-- None of the names is the name of a variable or member that is in scope. -/
def Free (scope names : List String) : Prop := ∀ n ∈ names, n ∉ scope

/-! ### Expressions and statements -/

/-- `const {e}IntoBuffers()` as a codec of list elements. -/
inductive ElemTyped (L : DartLib) (F : DartFile) : String → Ty → Prop
  | own (c : CodecClass) : c ∈ F.codecs → c.body.kind = .into → ElemTyped L F c.id (.named c.id)
  | prim (e t : String) : (e, t) ∈ [("Int", "int"), ("Double", "double"), ("Bool", "bool")] → e ++ "IntoBuffers" ∉ F.names →
      t ∉ F.names → ElemTyped L F e (.named t)
  | lib (e : String) (t : Ty) : e ++ "IntoBuffers" ∉ F.names → L.elements e t → ElemTyped L F e t

/-- A codec expression of the given family for the given type. -/
inductive CodecTyped (L : DartLib) (F : DartFile) : Codec → Kind → Ty → Prop
  | own (c : CodecClass) : c ∈ F.codecs → CodecTyped L F (.plain c.body.kind c.id) c.body.kind (.named c.id)
  | lib (k : Kind) (b : String) : b ++ k.suffix ∉ F.names → b ∉ F.names → L.codecs k b → CodecTyped L F (.plain k b) k (.named b)
  | generic (k : Kind) (b : String) (args : List Ty) : b ++ k.suffix ∉ F.names → L.genericCodecs k b args.length →
      (∀ a ∈ args, TypeTyped L F.names a) → CodecTyped L F (.generic k b args) k (.app b args)
  | list (k : Kind) (a : Ty) (e : String) : "List" ++ k.suffix ∉ F.names → TypeTyped L F.names a → ElemTyped L F e a →
      CodecTyped L F (.list k a e) k (.app "List" [a])

/-- `reader.readM()` and `writer.writeM(..)`. -/
def primMethods : List (String × String) :=
  [("Int8", "int"), ("Int32", "int"), ("Int64", "int"), ("Float", "double"), ("Double", "double"), ("Bool", "bool")]

def PrimTyped (F : DartFile) (m : String) (t : Ty) : Prop := ∃ n, (m, n) ∈ primMethods ∧ n ∉ F.names ∧ t = .named n

/-- In the following `V` are the variables and members in scope, apart from `reader`, `writer` and `model`
where the expression uses them. -/
def ReadTyped (L : DartLib) (F : DartFile) (V : List String) : ReadE → Ty → Prop
  | .prim m, t => PrimTyped F m t
  | .codec c, t => Free V c.names ∧ CodecTyped L F c .into t

def EmplTyped (L : DartLib) (F : DartFile) (V : List String) (places : List (Acc × Ty)) : EmplS → Prop
  | .assign a e => ∃ t, (a, t) ∈ places ∧ ReadTyped L F V e t
  | .into c a => Free V c.names ∧ ∃ t, (a, t) ∈ places ∧ CodecTyped L F c .emplace t

def WriteTyped (L : DartLib) (F : DartFile) (V : List String) (places : List (Acc × Ty)) : WriteS → Prop
  | .prim m a => ∃ t, (a, t) ∈ places ∧ PrimTyped F m t
  | .codec c a => Free V c.names ∧ ∃ t k, (a, t) ∈ places ∧ CodecTyped L F c k t

def SkipTyped (L : DartLib) (F : DartFile) (V : List String) : SkipS → Prop
  | .prim m => ∃ t, PrimTyped F m t
  | .codec c => Free V c.names ∧ ∃ t k, CodecTyped L F c k t

/-- Default values. -/
inductive DefTyped (L : DartLib) (F : DartFile) (V : List String) : DefE → Ty → Prop
  | zero : "int" ∉ F.names → DefTyped L F V .zero (.named "int")
  | zeroD : "double" ∉ F.names → DefTyped L F V .zero (.named "double")
  | zeroF : "double" ∉ F.names → DefTyped L F V .zeroF (.named "double")
  | no : "bool" ∉ F.names → DefTyped L F V .no (.named "bool")
  | own (id : String) : id ∈ F.structs.map (·.id) ++ F.enums.map (·.id) → id ++ "BuffersFactory" ∉ V →
      DefTyped L F V (.factory id) (.named id)
  | lib (id : String) : id ++ "BuffersFactory" ∉ F.names → id ∉ F.names → id ++ "BuffersFactory" ∉ V → L.factories id →
      DefTyped L F V (.factory id) (.named id)
  | list (t : Ty) : "ListBuffersFactory" ∉ F.names → Free V ("ListBuffersFactory" :: t.names) → TypeTyped L F.names t →
      DefTyped L F V (.factoryG "List" [t]) (.app "List" [t])
  | app (c : String) (args : List Ty) : c ++ "BuffersFactory" ∉ F.names → Free V ((c ++ "BuffersFactory") :: tysNames args) →
      L.genericFactories c args.length → (∀ a ∈ args, TypeTyped L F.names a) → DefTyped L F V (.factoryG c args) (.app c args)

/-! ### Classes -/

/-- A member of the class `cls`: it cannot have the name of the class. -/
def MemberName (cls n : String) : Prop := DartName n ∧ n ≠ cls

/-- A field does not clash with a member of `Object`. -/
def ObjectField (D : List String) (t : Ty) (n : String) : Prop :=
  n ∉ ["toString", "noSuchMethod", "runtimeType"] ∧ (n = "hashCode" → t = .named "int" ∧ "int" ∉ D)

def objectMembers : List String := ["hashCode", "runtimeType", "toString", "noSuchMethod"]

/-- `class {id}BuffersFactory implements BuffersFactory<{id}>` with its method `createDefault`. -/
def FactoryTyped (D : List String) (id : String) : Prop :=
  "BuffersFactory" ∉ D ∧ "override" ∉ D ∧ id ≠ "createDefault"

structure StructTyped (L : DartLib) (F : DartFile) (c : StructClass) : Prop where
  name : DartTypeName c.id
  fields : (c.fields.map (·.2)).Nodup
  members : ∀ f ∈ c.fields, MemberName c.id f.2 ∧ Public f.2 ∧ ObjectField F.names f.1 f.2
  types : ∀ f ∈ c.fields, TypeTyped L F.names f.1 ∧ Free (c.fields.map (·.2)) f.1.names
  /-- both constructors initialise each field once -/
  ctor : c.ctor.Nodup ∧ ∀ n, n ∈ c.ctor ↔ n ∈ c.fields.map (·.2)
  inits : (c.inits.map (·.1)).Nodup ∧ (∀ n ∈ c.fields.map (·.2), n ∈ c.inits.map (·.1)) ∧
    ∀ i ∈ c.inits, ∃ t, (t, i.1) ∈ c.fields ∧ DefTyped L F (c.fields.map (·.2)) i.2 t
  factory : FactoryTyped F.names c.id

/-- A payload field: `const C()` if the class has no fields, else `C.createDefault()`. -/
inductive NewTyped (F : DartFile) : NewE → String → Prop
  | const (s : StructClass) : s ∈ F.structs → s.fields = [] → NewTyped F (.const s.id) s.id
  | create (s : StructClass) : s ∈ F.structs → s.fields ≠ [] → NewTyped F (.createDefault s.id) s.id

def _root_.TPB.Dart.Params.list : Params → List (Ty × String)
  | .unit => []
  | .positional xs => xs
  | .named xs => xs

def enumMembers (c : EnumClass) : List String :=
  "value" :: (c.payloads.map (·.2.1) ++ c.tos.map (fun m => "to" ++ m.name) ++ c.isses.map (fun i => "is" ++ i.1)
    ++ c.creates.map (fun m => "create" ++ m.name))

/-- The parts that `toV` and `createV` share. -/
structure MethodTyped (L : DartLib) (F : DartFile) (c : EnumClass) (m : VMethod) : Prop where
  const : m.const ∈ c.consts
  params : (m.params.list.map (·.2)).Nodup
  names : ∀ p ∈ m.params.list, DartName p.2
  types : ∀ p ∈ m.params.list, TypeTyped L F.names p.1 ∧ Free (enumMembers c) p.1.names
  /-- `({})` is not a parameter list, and named parameters are public -/
  named : ∀ xs, m.params = .named xs → xs ≠ [] ∧ ∀ p ∈ xs, Public p.2
  assigns : ∀ a ∈ m.assigns, ∃ cls new s t, (cls, m.field, new) ∈ c.payloads ∧ s ∈ F.structs ∧ s.id = cls ∧
    (t, a.1) ∈ s.fields ∧ (t, a.2) ∈ m.params.list

structure EnumTyped (L : DartLib) (F : DartFile) (c : EnumClass) : Prop where
  name : DartTypeName c.id ∧ DartTypeName (c.id ++ "Value")
  consts : c.consts ≠ [] ∧ c.consts.Nodup ∧
    ∀ n ∈ c.consts, MemberName (c.id ++ "Value") n ∧ n ∉ "index" :: "values" :: objectMembers
  first : c.first ∈ c.consts
  members : (enumMembers c).Nodup ∧ ∀ n ∈ enumMembers c, MemberName c.id n ∧ n ∉ objectMembers
  value : c.id ++ "Value" ∉ enumMembers c
  payloads : ∀ p ∈ c.payloads, p.1 ∉ enumMembers c ∧ NewTyped F p.2.2 p.1
  tos : ∀ m ∈ c.tos, MethodTyped L F c m ∧ Free (m.params.list.map (·.2)) ["value", c.id ++ "Value", m.field]
  isses : "bool" ∉ F.names ∧ "bool" ∉ enumMembers c ∧ ∀ i ∈ c.isses, i.2 ∈ c.consts
  creates : ∀ m ∈ c.creates, MethodTyped L F c m ∧ Free ("model" :: m.params.list.map (·.2)) [c.id, c.id ++ "Value"] ∧
    ∀ a ∈ m.assigns, a.2 ≠ "model"
  factory : FactoryTyped F.names c.id

/-- The methods of a codec class. -/
def codecMembers : List String := ["read", "write", "skip"]

def modelPlaces (s : StructClass) : List (Acc × Ty) := s.fields.map (fun f => (.field f.2, f.1))

def SkipBodyTyped (L : DartLib) (F : DartFile) (sk : SkipBody) : Prop :=
  (∀ s ∈ sk.once, SkipTyped L F ("reader" :: "count" :: codecMembers) s) ∧
  ∀ s ∈ sk.loop, SkipTyped L F ("i" :: "reader" :: "count" :: codecMembers) s

/-- The payload field `f` of the enum has the type that the codec reads and writes. -/
def PayloadTyped (L : DartLib) (F : DartFile) (V : List String) (e : EnumClass) (f : String) (c : Codec) : Prop :=
  Free V c.names ∧ ∃ cls new, (cls, f, new) ∈ e.payloads ∧ CodecTyped L F c .emplace (.named cls)

/-- The `read`, `write` and `skip` of an enum; `V` are the variables of `read`. -/
structure EnumCodecTyped (L : DartLib) (F : DartFile) (V : List String) (e : EnumClass) (rs : List ReadCase) (ws : List WriteCase)
    (ss : List SkipCase) : Prop where
  error : "StateError" ∉ F.names
  reads : ∀ r ∈ rs, r.pos < 2 ^ 63 ∧ r.const ∈ e.consts ∧ PayloadTyped L F V e r.field r.codec
  readNames : Free V [e.id ++ "Value"]
  writes : (∀ n ∈ e.consts, n ∈ ws.map (·.const)) ∧ ∀ w ∈ ws, w.pos < 2 ^ 63 ∧ w.const ∈ e.consts ∧
    PayloadTyped L F ("writer" :: "model" :: codecMembers) e w.field w.codec
  writeNames : Free ("writer" :: "model" :: codecMembers) [e.id ++ "Value"]
  skips : ∀ s ∈ ss, s.pos < 2 ^ 63 ∧ SkipTyped L F ("value" :: "i" :: "reader" :: "count" :: codecMembers) (.codec s.codec)

/-- A codec class for the model class of the same id. -/
def BodyTyped (L : DartLib) (F : DartFile) (id : String) : CodecBody → Prop
  | .structInto locals args ws sk => ∃ s ∈ F.structs, s.id = id ∧
      (locals.map (·.1)).Nodup ∧ (∀ l ∈ locals, DartName l.1 ∧ l.1 ≠ "reader") ∧ id ∉ "reader" :: locals.map (·.1) ∧
      (args.map (·.1)).Nodup ∧ (∀ p ∈ s.ctor, p ∈ args.map (·.1)) ∧
      (∀ l ∈ locals, ∃ t, ReadTyped L F ("reader" :: (codecMembers ++ locals.map (·.1))) l.2 t) ∧
      (∀ a ∈ args, ∃ t e, a.1 ∈ s.ctor ∧ (t, a.1) ∈ s.fields ∧ (a.2, e) ∈ locals ∧
        ReadTyped L F ("reader" :: (codecMembers ++ locals.map (·.1))) e t) ∧
      (∀ w ∈ ws, WriteTyped L F ("writer" :: "model" :: codecMembers) (modelPlaces s) w) ∧ SkipBodyTyped L F sk
  | .structEmplace rs ws sk => ∃ s ∈ F.structs, s.id = id ∧
      (∀ r ∈ rs, EmplTyped L F ("reader" :: "model" :: codecMembers) (modelPlaces s) r) ∧
      (∀ w ∈ ws, WriteTyped L F ("writer" :: "model" :: codecMembers) (modelPlaces s) w) ∧ SkipBodyTyped L F sk
  | .enumInto rs ws ss => ∃ e ∈ F.enums, e.id = id ∧ Free ("reader" :: "value" :: "model" :: codecMembers) [id] ∧
      EnumCodecTyped L F ("reader" :: "value" :: "model" :: codecMembers) e rs ws ss
  | .enumEmplace rs ws ss => ∃ e ∈ F.enums, e.id = id ∧
      EnumCodecTyped L F ("reader" :: "value" :: "model" :: codecMembers) e rs ws ss

structure CodecClassTyped (L : DartLib) (F : DartFile) (c : CodecClass) : Prop where
  /-- names of the header and of the signatures -/
  head : Free F.names ["BytesReader", "BytesWriter", "int", "override", c.body.kind.suffix]
  scope : c.id ∉ codecMembers
  body : BodyTyped L F c.id c.body

/-- The models and codecs of a file are accepted. -/
structure DartTyped (L : DartLib) (items : List ClassItem) (codecs : List CodecClass) : Prop where
  once : (declaredNames items codecs).Nodup
  structs : ∀ c ∈ structsOf items, StructTyped L (dartFile items codecs) c
  enums : ∀ c ∈ enumsOf items, EnumTyped L (dartFile items codecs) c
  codecs : ∀ c ∈ codecs, CodecClassTyped L (dartFile items codecs) c

/-! ### Schemas for which this is the case -/

/-- Names that the emitted code uses: of the core library, of the runtime library, and its own variables
and members. -/
def dartUsed : List String :=
  ["int", "double", "bool", "List", "BytesReader", "BytesWriter", "IntoBuffers", "EmplaceToBuffers", "BuffersFactory",
   "StateError", "override", "ListIntoBuffers", "ListEmplaceToBuffers", "ListBuffersFactory", "IntIntoBuffers",
   "DoubleIntoBuffers", "BoolIntoBuffers"]

def dartVars : List String :=
  ["read", "write", "skip", "reader", "writer", "model", "count", "i", "value", "createDefault"]

mutual
/-- A type in Dart. -/
def dartTy : TypeId → Ty
  | .integer _ _ _ => .named "int"
  | .number _ _ => .named "double"
  | .bool _ => .named "bool"
  | .char _ => .named "int"
  | .other id => .named id
  | .generic id gs => .app (if id = "Vec" then "List" else id) (dartTys gs)
def dartTys : List TypeId → List Ty
  | [] => []
  | t :: ts => dartTy t :: dartTys ts
end

/-- The class names that the emitted code mentions for a value of the type. -/
def dartMentions (t : TypeId) : List String :=
  (dartTy t).names ++
  match t with
  | .other id => [id ++ "IntoBuffers", id ++ "EmplaceToBuffers", id ++ "BuffersFactory"]
  | .generic id gs =>
    let c := if id = "Vec" then "List" else id
    [c ++ "IntoBuffers", c ++ "EmplaceToBuffers", c ++ "BuffersFactory"] ++ gs.map (fun g => dartElem g ++ "IntoBuffers")
  | _ => []

/-- The type can be written in Dart. -/
inductive DartTypeExists (L : DartLib) (S : List ASTNode) : TypeId → Prop
  | own (id : String) : id ∈ typeNames S → DartTypeExists L S (.other id)
  | builtin (t : TypeId) (id : String) : builtin? t = some id → DartTypeExists L S t
  | lib (id : String) : id ∉ dartClasses S → L.types id 0 → DartTypeExists L S (.other id)
  | list (g : TypeId) : DartTypeExists L S g → DartTypeExists L S (.generic "Vec" [g])
  | generic (c : String) (gs : List TypeId) : c ≠ "Vec" → c ∉ dartClasses S → L.types c gs.length →
      (∀ g ∈ gs, DartTypeExists L S g) → DartTypeExists L S (.generic c gs)

/-- It has the codecs and factories that a field needs. -/
inductive DartUsable (L : DartLib) (S : List ASTNode) : TypeId → Prop
  | own (id : String) : id ∈ typeNames S → DartUsable L S (.other id)
  | builtin (t : TypeId) (id : String) : builtin? t = some id → DartUsable L S t
  | lib (id : String) : Free (dartClasses S) [id, id ++ "IntoBuffers", id ++ "EmplaceToBuffers", id ++ "BuffersFactory"] →
      L.codecs .into id → (id = "String" ∨ L.codecs .emplace id) → L.factories id → DartUsable L S (.other id)
  /-- lists of declared types and of built-in types -/
  | listOwn (id : String) : id ∈ typeNames S → DartUsable L S (.generic "Vec" [.other id])
  | listBuiltin (g : TypeId) (id : String) : builtin? g = some id → DartUsable L S (.generic "Vec" [g])
  | listLib (g : TypeId) : dartElem g ++ "IntoBuffers" ∉ dartClasses S → L.elements (dartElem g) (dartTy g) →
      DartUsable L S (.generic "Vec" [g])
  | generic (c : String) (gs : List TypeId) : c ≠ "Vec" →
      Free (dartClasses S) [c ++ "IntoBuffers", c ++ "EmplaceToBuffers", c ++ "BuffersFactory"] →
      L.genericCodecs .into c gs.length → L.genericCodecs .emplace c gs.length → L.genericFactories c gs.length →
      DartUsable L S (.generic c gs)

/-- The fields of a class: Dart names with types of the schema. -/
structure ClassOk (S : List ASTNode) (cls : String) (fs : List (String × TypeId)) : Prop where
  once : (fs.map (·.1)).Nodup
  names : ∀ f ∈ fs, MemberName cls f.1 ∧ Public f.1
  object : ∀ f ∈ fs, f.1 ∉ ["toString", "noSuchMethod", "runtimeType"] ∧ (f.1 = "hashCode" → dartTy f.2 = .named "int")
  /-- no field hides a class that is used for a field -/
  hides : ∀ f ∈ fs, ∀ g ∈ fs, f.1 ∉ dartMentions g.2

def dartFields (x : Ext) (n : StructNode) : List (String × TypeId) := n.fields.map (fun f => (x.camel f.name, f.typeId))

def dartPayload (x : Ext) (i : EnumItem) : List (String × TypeId) := (dartPayloadNames x i).zip ((payload i).map (·.2))

/-- The members of the class of an enum. -/
def dartMembers (x : Ext) (n : EnumNode) : List String :=
  "value" :: (n.items.map (fun i => x.camel i.id) ++ n.items.map (fun i => "to" ++ x.pascal i.id)
    ++ n.items.map (fun i => "is" ++ x.pascal i.id) ++ n.items.map (fun i => "create" ++ x.pascal i.id))

/-- An enum whose class is accepted. -/
structure EnumOk (x : Ext) (n : EnumNode) : Prop where
  numbers : ∀ i ∈ n.items, i.position < 2 ^ 63
  consts : ∀ i ∈ n.items, x.camel i.id ≠ n.id ++ "Value" ∧ x.camel i.id ∉ ["index", "values"]
  members : (dartMembers x n).Nodup
  names : ∀ m ∈ dartMembers x n, MemberName n.id m ∧ m ∉ objectMembers
  /-- no member hides a class that is used in the class -/
  hides : Free (dartMembers x n) ("bool" :: (n.id ++ "Value") :: n.items.map (fun i => n.id ++ i.id))
  types : ∀ i ∈ n.items, ∀ f ∈ payload i, Free (dartMembers x n) (dartTy f.2).names
  /-- a variant with parentheses or braces has a payload -/
  inhabited : ∀ i ∈ n.items, payload i = [] → ∃ p id, i = .empty p id
  /-- the names `v0`, `v1`, .. are kept by the conversion of names -/
  tuples : ∀ i ∈ n.items, ∀ p id vs, i = .tuple p id vs → dartPayloadNames x i = (List.range vs.length).map (fun k => "v" ++ toString k)
  /-- parameters do not hide what the methods use -/
  params : ∀ i ∈ n.items, Free (dartPayloadNames x i) ["value", "model", x.camel i.id, n.id, n.id ++ "Value"]

/-- The schemas whose Dart code is accepted. -/
structure DartTypable (x : Ext) (L : DartLib) (S : List ASTNode) : Prop where
  classes : (dartClasses S).Nodup
  names : ∀ c ∈ dartClasses S, DartTypeName c ∧ c ∉ dartUsed ++ dartVars
  types : ∀ d ∈ S, ∀ t ∈ directTypes d, DartTypeExists L S t ∧ DartUsable L S t
  /-- imported classes are not called like a variable of the emitted code -/
  mentions : ∀ d ∈ S, ∀ t ∈ directTypes d, Free dartVars (dartMentions t)
  structs : ∀ n, .struct n ∈ S → ClassOk S n.id (dartFields x n) ∧ Free (dartFieldNames x n) ["reader"]
  variants : ∀ n, .enum n ∈ S → ∀ i ∈ n.items, ClassOk S (n.id ++ i.id) (dartPayload x i)
  enums : ∀ n, .enum n ∈ S → EnumOk x n

end TPB.Spec.DartRules
