/-
Syntax of the Dart code that the generator emits for structs and enums, with its rendering to text.

`gen*` builds, from a schema, the syntax tree of the emitted model classes and codec classes;
`render*` prints a tree as lines of text.  `Proofs/DartText.lean` proves that printing the tree gives
exactly the text that `Model/DartGen.lean` produces.
-/
import Verif.Model.DartGen
import Verif.Sem.Text
namespace TPB.Dart
open DartGen (listName classPrefix enumItemStruct isOther)

/-- A type expression: `Foo` or `Foo<A, B>`. -/
inductive Ty where
  | named (id : String)
  | app (id : String) (args : List Ty)
  deriving Repr, Inhabited

/-- The two families of codec classes: `XIntoBuffers` and `XEmplaceToBuffers`. -/
inductive Kind where
  | into
  | emplace
  deriving Repr, DecidableEq, Inhabited

def Kind.suffix : Kind → String
  | .into => "IntoBuffers"
  | .emplace => "EmplaceToBuffers"

/-- An expression that denotes a codec object. -/
inductive Codec where
  /-- `const {base}{suffix}()` -/
  | plain (k : Kind) (base : String)
  /-- `const {base}{suffix}<args>()` -/
  | generic (k : Kind) (base : String) (args : List Ty)
  /-- `const List{suffix}<arg>(const {elem}IntoBuffers())` -/
  | list (k : Kind) (arg : Ty) (elem : String)
  deriving Repr, Inhabited

/-- The place that a statement reads from or assigns to: `model.f` or a local variable. -/
inductive Acc where
  | field (name : String)
  | var (name : String)
  deriving Repr, Inhabited, DecidableEq

/-- A read expression: `reader.readM()` or `codec.read(reader)`. -/
inductive ReadE where
  | prim (method : String)
  | codec (c : Codec)
  deriving Repr, Inhabited

/-- A statement that reads into an existing place: `acc = e;` or `codec.read(reader, acc);`. -/
inductive EmplS where
  | assign (acc : Acc) (e : ReadE)
  | into (c : Codec) (acc : Acc)
  deriving Repr, Inhabited

/-- A skip statement: `reader.readM();` or `codec.skip(reader, 1);`. -/
inductive SkipS where
  | prim (method : String)
  | codec (c : Codec)
  deriving Repr, Inhabited

/-- A write statement: `writer.writeM(acc);` or `codec.write(writer, acc);`. -/
inductive WriteS where
  | prim (method : String) (acc : Acc)
  | codec (c : Codec) (acc : Acc)
  deriving Repr, Inhabited

/-- Body of `skip` of a struct codec: statements before the loop, and statements in
`for (int i = 0; i < count; i += 1) { .. }`. -/
structure SkipBody where
  once : List SkipS
  loop : List SkipS
  deriving Repr, Inhabited

/-- `case pos:` of an enum's `read`: the constant of the variant, the codec that reads the payload and
the field that holds the payload. -/
structure ReadCase where
  pos : Nat
  const : String
  codec : Codec
  field : String
  deriving Repr, Inhabited

/-- `case EValue.const:` of an enum's `write`: the number written, the payload's codec and field. -/
structure WriteCase where
  const : String
  pos : Nat
  codec : Codec
  field : String
  deriving Repr, Inhabited

/-- `case pos:` of an enum's `skip`. -/
structure SkipCase where
  pos : Nat
  codec : Codec
  deriving Repr, Inhabited

/-- The members of a codec class. -/
inductive CodecBody where
  /-- `final x = e; .. return C(a: x, ..);` -/
  | structInto (locals : List (String × ReadE)) (args : List (String × String))
      (writes : List WriteS) (skip : SkipBody)
  | structEmplace (reads : List EmplS) (writes : List WriteS) (skip : SkipBody)
  | enumInto (reads : List ReadCase) (writes : List WriteCase) (skips : List SkipCase)
  | enumEmplace (reads : List ReadCase) (writes : List WriteCase) (skips : List SkipCase)
  deriving Repr, Inhabited

def CodecBody.kind : CodecBody → Kind
  | .structInto .. => .into
  | .structEmplace .. => .emplace
  | .enumInto .. => .into
  | .enumEmplace .. => .emplace

/-- A codec class `{id}{suffix}` for the model class `id`. -/
structure CodecClass where
  id : String
  body : CodecBody
  deriving Repr, Inhabited

/-- Name of a codec class. -/
def CodecClass.name (c : CodecClass) : String := c.id ++ c.body.kind.suffix

/-- A default value: `0`, `0.0`, `false`, `const XBuffersFactory().createDefault()` or
`const XBuffersFactory<A>().createDefault()`. -/
inductive DefE where
  | zero
  | zeroF
  | no
  | factory (id : String)
  | factoryG (id : String) (args : List Ty)
  deriving Repr, Inhabited

/-- A model class for a struct, with its factory class.  Without fields the class has only a `const`
constructor and no `createDefault`. -/
structure StructClass where
  id : String
  fields : List (Ty × String)
  /-- parameters `required this.f` of the constructor -/
  ctor : List String
  /-- initializers `f = e` of the named constructor `createDefault` -/
  inits : List (String × DefE)
  deriving Repr, Inhabited

/-- Initial value of a payload field: `const C()` or `C.createDefault()`. -/
inductive NewE where
  | const (cls : String)
  | createDefault (cls : String)
  deriving Repr, Inhabited

/-- Parameters of the methods `toV` and `createV`: none, positional, or `required` named ones. -/
inductive Params where
  | unit
  | positional (xs : List (Ty × String))
  | named (xs : List (Ty × String))
  deriving Repr, Inhabited

/-- What `toV` and `createV` do: `value = EValue.const; field.f = x; ..`. -/
structure VMethod where
  /-- `V` -/
  name : String
  const : String
  field : String
  params : Params
  assigns : List (String × String)
  deriving Repr, Inhabited

/-- A model class for an enum, with the enumeration of its variants and its factory class. -/
structure EnumClass where
  id : String
  consts : List String
  first : String
  /-- class, name and initial value of each payload field -/
  payloads : List (String × String × NewE)
  tos : List VMethod
  /-- `bool isV() => value == EValue.const;` -/
  isses : List (String × String)
  creates : List VMethod
  deriving Repr, Inhabited

/-- What the models section holds for one declaration. -/
inductive ClassItem where
  | struct (c : StructClass)
  /-- the class of the enum and the classes of its variants -/
  | enum (c : EnumClass) (variants : List StructClass)
  deriving Repr, Inhabited

/-! ### Rendering -/

mutual
def Ty.render : Ty → String
  | .named id => id
  | .app id args => id ++ "<" ++ joinStr ", " (renderTys args) ++ ">"
def renderTys : List Ty → List String
  | [] => []
  | t :: ts => t.render :: renderTys ts
end

theorem renderTys_eq (ts : List Ty) : renderTys ts = ts.map Ty.render := by
  induction ts with
  | nil => rfl
  | cons t ts ih => simp [renderTys, ih]

def Codec.render : Codec → String
  | .plain k b => "const " ++ b ++ k.suffix ++ "()"
  | .generic k b args => "const " ++ b ++ k.suffix ++ "<" ++ joinStr ", " (args.map Ty.render) ++ ">()"
  | .list k a e => "const List" ++ k.suffix ++ "<" ++ a.render ++ ">(const " ++ e ++ "IntoBuffers())"

def Acc.render : Acc → String
  | .field n => "model." ++ n
  | .var n => n

def ReadE.render : ReadE → String
  | .prim m => "reader.read" ++ m ++ "()"
  | .codec c => c.render ++ ".read(reader)"

def EmplS.render : EmplS → String
  | .assign a e => a.render ++ " = " ++ e.render ++ ";"
  | .into c a => c.render ++ ".read(reader, " ++ a.render ++ ");"

def SkipS.render : SkipS → String
  | .prim m => "reader.read" ++ m ++ "();"
  | .codec c => c.render ++ ".skip(reader, 1);"

def WriteS.render : WriteS → String
  | .prim m a => "writer.write" ++ m ++ "(" ++ a.render ++ ");"
  | .codec c a => c.render ++ ".write(writer, " ++ a.render ++ ");"

def readHeader (id : String) : List Line :=
  [(1, "@override"), (1, id ++ " read(BytesReader reader) {")]
def emplaceHeader (id : String) : List Line :=
  [(1, "@override"), (1, "void read(BytesReader reader, " ++ id ++ " model) {")]
def writeHeader (id : String) : List Line :=
  [(1, "@override"), (1, "void write(BytesWriter writer, " ++ id ++ " model) {")]
def skipHeader : List Line :=
  [(1, "@override"), (1, "void skip(BytesReader reader, int count) {")]

def renderWrites (id : String) (ws : List WriteS) : List Line :=
  writeHeader id ++ ws.map (fun s => (2, s.render)) ++ [(1, "}")]

def SkipBody.render (s : SkipBody) : List Line :=
  skipHeader ++ s.once.map (fun s => (2, s.render)) ++ (if s.once.isEmpty then [] else [(0, "")])
    ++ [(2, "for (int i = 0; i < count; i += 1) {")] ++ s.loop.map (fun s => (3, s.render))
    ++ [(2, "}"), (1, "}")]

def ReadCase.renderInto (id : String) (c : ReadCase) : List Line :=
  [(3, "case " ++ toString c.pos ++ ":"), (4, "final model = " ++ id ++ "();"),
   (4, "model.value = " ++ id ++ "Value." ++ c.const ++ ";"),
   (4, c.codec.render ++ ".read(reader, model." ++ c.field ++ ");"), (4, "return model;"), (0, "")]

def ReadCase.renderEmplace (id : String) (c : ReadCase) : List Line :=
  [(3, "case " ++ toString c.pos ++ ":"), (4, "model.value = " ++ id ++ "Value." ++ c.const ++ ";"),
   (4, c.codec.render ++ ".read(reader, model." ++ c.field ++ ");"), (4, "return;"), (0, "")]

def WriteCase.render (id : String) (c : WriteCase) : List Line :=
  [(3, "case " ++ id ++ "Value." ++ c.const ++ ":"),
   (4, "writer.writeInt32(" ++ toString c.pos ++ ");"),
   (4, c.codec.render ++ ".write(writer, model." ++ c.field ++ ");"), (4, "return;")]

def SkipCase.render (c : SkipCase) : List Line :=
  [(4, "case " ++ toString c.pos ++ ":"), (5, c.codec.render ++ ".skip(reader, 1);"), (5, "break;"),
   (0, "")]

/-- `final value = reader.readInt32(); switch (value) { cases default: throw .. }`. -/
def renderTagSwitch (t : Nat) (cases : List Line) : List Line :=
  [(t, "final value = reader.readInt32();"), (0, ""), (t, "switch (value) {")] ++ cases
    ++ [(t + 1, "default:"), (t + 2, "throw StateError('Unsupported enum value: $value');"), (t, "}")]

def renderEnumWrites (id : String) (ws : List WriteCase) : List Line :=
  writeHeader id ++ [(2, "switch (model.value) {")] ++ joinBlocks (ws.map (WriteCase.render id))
    ++ [(2, "}"), (1, "}")]

def renderEnumSkips (cs : List SkipCase) : List Line :=
  skipHeader ++ [(2, "for (int i = 0; i < count; i += 1) {")]
    ++ renderTagSwitch 3 (cs.flatMap SkipCase.render) ++ [(2, "}"), (1, "}")]

def CodecBody.render (id : String) : CodecBody → List Line
  | .structInto locals args ws sk =>
    readHeader id ++ locals.map (fun l => (2, "final " ++ l.1 ++ " = " ++ l.2.render ++ ";"))
      ++ [(0, ""), (2, "return " ++ id ++ "(")] ++ args.map (fun a => (3, a.1 ++ ": " ++ a.2 ++ ","))
      ++ [(2, ");"), (1, "}"), (0, "")] ++ renderWrites id ws ++ [(0, "")] ++ sk.render
  | .structEmplace rs ws sk =>
    emplaceHeader id ++ rs.map (fun s => (2, s.render)) ++ [(1, "}"), (0, "")] ++ renderWrites id ws
      ++ [(0, "")] ++ sk.render
  | .enumInto rs ws ss =>
    readHeader id ++ renderTagSwitch 2 (rs.flatMap (ReadCase.renderInto id)) ++ [(1, "}"), (0, "")]
      ++ renderEnumWrites id ws ++ [(0, "")] ++ renderEnumSkips ss
  | .enumEmplace rs ws ss =>
    emplaceHeader id ++ renderTagSwitch 2 (rs.flatMap (ReadCase.renderEmplace id))
      ++ [(1, "}"), (0, "")] ++ renderEnumWrites id ws ++ [(0, "")] ++ renderEnumSkips ss

/-- The head of a codec class and its constructor. -/
def Kind.renderHead (id : String) : Kind → List Line
  | .into => [(0, "class " ++ id ++ "IntoBuffers implements IntoBuffers<" ++ id ++ "> {"),
      (1, "const " ++ id ++ "IntoBuffers();"), (0, "")]
  | .emplace => [(0, "class " ++ id ++ "EmplaceToBuffers implements EmplaceToBuffers<" ++ id ++ "> {"),
      (1, "const " ++ id ++ "EmplaceToBuffers();"), (0, "")]

def CodecClass.render (c : CodecClass) : List Line :=
  c.body.kind.renderHead c.id ++ c.body.render c.id ++ [(0, "}")]

def DefE.render : DefE → String
  | .zero => "0"
  | .zeroF => "0.0"
  | .no => "false"
  | .factory id => "const " ++ id ++ "BuffersFactory().createDefault()"
  | .factoryG id args =>
    "const " ++ id ++ "BuffersFactory<" ++ joinStr ", " (args.map Ty.render) ++ ">().createDefault()"

/-- The initializer list `: a = e,` .. `  z = e;`. -/
def renderInits (first : Bool) : List (String × DefE) → List Line
  | [] => []
  | [i] => [(3, (if first then ": " else "  ") ++ (i.1 ++ " = " ++ i.2.render) ++ ";")]
  | i :: j :: is => (3, (if first then ": " else "  ") ++ (i.1 ++ " = " ++ i.2.render) ++ ",")
      :: renderInits false (j :: is)

def renderFactory (id new : String) : List Line :=
  [(0, "class " ++ id ++ "BuffersFactory implements BuffersFactory<" ++ id ++ "> {"),
   (1, "const " ++ id ++ "BuffersFactory();"), (0, ""), (1, "@override"),
   (1, id ++ " createDefault() => " ++ new), (0, "}")]

def StructClass.render (c : StructClass) : List Line :=
  if c.fields.isEmpty then
    [(0, "class " ++ c.id ++ " {"), (1, "const " ++ c.id ++ "();"), (0, "}"), (0, "")]
      ++ renderFactory c.id ("const " ++ c.id ++ "();")
  else
    [(0, "class " ++ c.id ++ " {")] ++ c.fields.map (fun f => (1, f.1.render ++ " " ++ f.2 ++ ";"))
      ++ [(0, ""), (1, c.id ++ "({")] ++ c.ctor.map (fun f => (2, "required this." ++ f ++ ","))
      ++ [(1, "});"), (0, ""), (1, c.id ++ ".createDefault()")] ++ renderInits true c.inits
      ++ [(0, "}"), (0, "")] ++ renderFactory c.id (c.id ++ ".createDefault();")

def NewE.render : NewE → String
  | .const c => "const " ++ c ++ "()"
  | .createDefault c => c ++ ".createDefault()"

/-- `{head}(params) {` -/
def Params.render (head : String) : Params → List Line
  | .unit => [(1, head ++ "() {")]
  | .positional xs => (1, head ++ "(") :: xs.map (fun p => (2, p.1.render ++ " " ++ p.2 ++ ","))
      ++ [(1, ") {")]
  | .named xs => (1, head ++ "({") :: xs.map (fun p => (2, "required " ++ p.1.render ++ " " ++ p.2 ++ ","))
      ++ [(1, "}) {")]

def VMethod.renderTo (id : String) (m : VMethod) : List Line :=
  match m.params with
  | .unit => [(1, "void to" ++ m.name ++ "() => value = " ++ id ++ "Value." ++ m.const ++ ";")]
  | p => p.render ("void to" ++ m.name) ++ [(2, "value = " ++ id ++ "Value." ++ m.const ++ ";")]
      ++ m.assigns.map (fun a => (2, m.field ++ "." ++ a.1 ++ " = " ++ a.2 ++ ";")) ++ [(1, "}")]

def VMethod.renderCreate (id : String) (m : VMethod) : List Line :=
  m.params.render ("static " ++ id ++ " create" ++ m.name)
    ++ [(2, "final model = " ++ id ++ "();"), (2, "model.value = " ++ id ++ "Value." ++ m.const ++ ";")]
    ++ m.assigns.map (fun a => (2, "model." ++ m.field ++ "." ++ a.1 ++ " = " ++ a.2 ++ ";"))
    ++ [(2, "return model;"), (1, "}")]

def EnumClass.render (c : EnumClass) : List Line :=
  [(0, "enum " ++ c.id ++ "Value {")] ++ c.consts.map (fun v => (1, v ++ ","))
    ++ [(0, "}"), (0, ""), (0, "class " ++ c.id ++ " {"),
        (1, c.id ++ "Value value = " ++ c.id ++ "Value." ++ c.first ++ ";")]
    ++ c.payloads.map (fun p => (1, p.1 ++ " " ++ p.2.1 ++ " = " ++ p.2.2.render ++ ";"))
    ++ [(0, "")] ++ joinBlocks (c.tos.map (VMethod.renderTo c.id)) ++ [(0, "")]
    ++ c.isses.map (fun i => (1, "bool is" ++ i.1 ++ "() => value == " ++ c.id ++ "Value." ++ i.2 ++ ";"))
    ++ [(0, "")] ++ joinBlocks (c.creates.map (VMethod.renderCreate c.id)) ++ [(0, "}"), (0, "")]
    ++ renderFactory c.id (c.id ++ "();")

/-- The lines of one item; the second component tells whether a blank line follows it (none does after
an enum). -/
def ClassItem.render : ClassItem → List Line
  | .struct c => c.render
  | .enum c vs => c.render ++ [(0, "")] ++ joinBlocks (vs.map StructClass.render)

/-- The models section: a blank line after each struct that is not the last item, none after enums. -/
def renderItems : List ClassItem → List Line
  | [] => []
  | [c] => c.render
  | .struct c :: d :: cs => c.render ++ (0, "") :: renderItems (d :: cs)
  | .enum c vs :: d :: cs => (ClassItem.enum c vs).render ++ renderItems (d :: cs)

/-! ### From schemas to trees -/

mutual
def genTy : TypeId → Ty
  | .integer _ _ _ => .named "int"
  | .number _ _ => .named "double"
  | .bool _ => .named "bool"
  | .char _ => .named "int"
  | .other id => .named id
  | .generic id gs => .app (listName id) (genTys gs)
def genTys : List TypeId → List Ty
  | [] => []
  | t :: ts => genTy t :: genTys ts
end

theorem genTys_eq (ts : List TypeId) : genTys ts = ts.map genTy := by
  induction ts with
  | nil => rfl
  | cons t ts ih => simp [genTys, ih]

/-- The reader and writer method of a built-in type (of the sizes the language has). -/
def methodOf : TypeId → String
  | .integer _ size _ => if size = 1 then "Int8" else if size = 4 then "Int32" else "Int64"
  | .number _ size => if size = 4 then "Float" else "Double"
  | .bool _ => "Bool"
  | .char _ => "Int8"
  | .other _ => ""
  | .generic _ _ => ""

/-- The codec of a generic type. -/
def genCodecG (k : Kind) (id : String) (gs : List TypeId) : Codec :=
  match gs with
  | [g] => if id = "Vec" then .list k (genTy g) (classPrefix g) else .generic k id [genTy g]
  | gs => .generic k id (gs.map genTy)

/-- The family of the codec of `id` in an emplace codec: `String` has no emplace codec. -/
def emplKind (id : String) : Kind := if id = "String" then .into else .emplace

def genRead : TypeId → ReadE
  | .other id => .codec (.plain .into id)
  | .generic id gs => .codec (genCodecG .into id gs)
  | t => .prim (methodOf t)

def genReadEmplace (t : TypeId) (a : Acc) : EmplS :=
  match t with
  | .other id =>
    if id = "String" then .assign a (.codec (.plain .into id)) else .into (.plain .emplace id) a
  | .generic id gs => .into (genCodecG .emplace id gs) a
  | t => .assign a (genRead t)

def genSkip (k : Kind) (t : TypeId) : SkipS :=
  match t with
  | .other id => .codec (.plain (match k with | .into => .into | .emplace => emplKind id) id)
  | .generic id gs => .codec (genCodecG k id gs)
  | t => .prim (methodOf t)

def genWrite (k : Kind) (t : TypeId) (a : Acc) : WriteS :=
  match t with
  | .other id => .codec (.plain (match k with | .into => .into | .emplace => emplKind id) id) a
  | .generic id gs => .codec (genCodecG k id gs) a
  | t => .prim (methodOf t) a

def genSkipBody (k : Kind) (fs : List StructField) : SkipBody where
  once := (fs.filter (fun f => isOther f.typeId)).map (fun f => genSkip k f.typeId)
  loop := (fs.filter (fun f => !isOther f.typeId)).map (fun f => genSkip k f.typeId)

variable (x : Ext)

def genStructInto (n : StructNode) : CodecClass where
  id := n.id
  body := .structInto (n.fields.map (fun f => (x.camel f.name, genRead f.typeId)))
    (n.fields.map (fun f => (x.camel f.name, x.camel f.name)))
    (n.fields.map (fun f => genWrite .into f.typeId (.field (x.camel f.name))))
    (genSkipBody .into n.fields)

def genStructEmplace (n : StructNode) : CodecClass where
  id := n.id
  body := .structEmplace (n.fields.map (fun f => genReadEmplace f.typeId (.field (x.camel f.name))))
    (n.fields.map (fun f => genWrite .emplace f.typeId (.field (x.camel f.name))))
    (genSkipBody .emplace n.fields)

/-- The codec class of a variant's payload. -/
def variantCodec (n : EnumNode) (i : EnumItem) : Codec := .plain .emplace (n.id ++ i.id)

def genReadCase (n : EnumNode) (i : EnumItem) : ReadCase :=
  ⟨i.position, x.camel i.id, variantCodec n i, x.camel i.id⟩
def genWriteCase (n : EnumNode) (i : EnumItem) : WriteCase :=
  ⟨x.camel i.id, i.position, variantCodec n i, x.camel i.id⟩
def genSkipCase (n : EnumNode) (i : EnumItem) : SkipCase := ⟨i.position, variantCodec n i⟩

def genEnumInto (n : EnumNode) : CodecClass where
  id := n.id
  body := .enumInto (n.items.map (genReadCase x n)) (n.items.map (genWriteCase x n))
    (n.items.map (genSkipCase n))

def genEnumEmplace (n : EnumNode) : CodecClass where
  id := n.id
  body := .enumEmplace (n.items.map (genReadCase x n)) (n.items.map (genWriteCase x n))
    (n.items.map (genSkipCase n))

def genStructCodecs (n : StructNode) : List CodecClass :=
  (if n.emplaceBuffers then [genStructEmplace x n] else [])
    ++ (if n.intoBuffers then [genStructInto x n] else [])

def genEnumCodecs (n : EnumNode) : List CodecClass :=
  n.items.map (fun i => genStructEmplace x (enumItemStruct n i)) ++ [genEnumInto x n, genEnumEmplace x n]

def genDef : TypeId → DefE
  | .integer _ _ _ => .zero
  | .number _ _ => .zeroF
  | .bool _ => .no
  | .char _ => .zero
  | .other id => .factory id
  | .generic id gs => .factoryG (listName id) (gs.map genTy)

def genStructClass (n : StructNode) : StructClass where
  id := n.id
  fields := n.fields.map (fun f => (genTy f.typeId, x.camel f.name))
  ctor := n.fields.map (fun f => x.camel f.name)
  inits := n.fields.map (fun f => (x.camel f.name, genDef f.typeId))

def genNew (n : EnumNode) : EnumItem → NewE
  | .empty _ id => .const (n.id ++ id)
  | .tuple _ id _ => .createDefault (n.id ++ id)
  | .struct _ id _ => .createDefault (n.id ++ id)

def genVMethod : EnumItem → VMethod
  | .empty _ id => ⟨x.pascal id, x.camel id, x.camel id, .unit, []⟩
  | .tuple _ id vs => ⟨x.pascal id, x.camel id, x.camel id,
      .positional ((withIdx 0 vs).map (fun p => (genTy p.2.typeId, "v" ++ toString p.1))),
      (withIdx 0 vs).map (fun p => ("v" ++ toString p.1, "v" ++ toString p.1))⟩
  | .struct _ id fs => ⟨x.pascal id, x.camel id, x.camel id,
      .named (fs.map (fun f => (genTy f.typeId, x.camel f.name))),
      fs.map (fun f => (x.camel f.name, x.camel f.name))⟩

def genEnumClass (n : EnumNode) (first : String) : EnumClass where
  id := n.id
  consts := n.items.map (fun i => x.camel i.id)
  first := x.camel first
  payloads := n.items.map (fun i => (n.id ++ i.id, x.camel i.id, genNew n i))
  tos := n.items.map (genVMethod x)
  isses := n.items.map (fun i => (x.pascal i.id, x.camel i.id))
  creates := n.items.map (genVMethod x)

def genVariants (n : EnumNode) : List StructClass :=
  n.items.map (fun i => genStructClass x (enumItemStruct n i))

/-- All codec classes of the buffers section, in order. -/
def genCodecs (S : List ASTNode) : List CodecClass :=
  S.flatMap (fun
    | .struct n => genStructCodecs x n
    | .enum n => genEnumCodecs x n
    | _ => [])

/-- All items of the models section, in order. -/
def genItems (S : List ASTNode) : List ClassItem :=
  S.filterMap (fun
    | .struct n => some (.struct (genStructClass x n))
    | .enum n => n.items.head?.map (fun d => .enum (genEnumClass x n d.id) (genVariants x n))
    | _ => none)

end TPB.Dart
