/-
A reader of Dart source text: from the characters of the two generated sections for types (model classes with
their factories, and codec classes) to the program that they denote.

It is written from the grammar of the language fragment, without reference to the generator or to the
functions that print trees: the text is cut into words, literals and symbols by `Spec/Reader.lean`, line
ends are dropped, and the rest is read by recursive descent.  Every name is checked to be an identifier and
not a reserved word.  A text outside of the fragment is refused.  The reader is deterministic, so a text has at
most one reading.
-/
import Verif.Sem.DartEval
import Verif.Spec.Combinators
import Verif.Spec.DartTyping
import Verif.Spec.Names
namespace TPB.Spec.DartReader
open Dart Pieces Combinators DartRules

/-- An identifier that is not a reserved word. -/
def name : P String
  | .word w :: ts => if isIdent w = true ∧ w ∉ dartReserved then some (w, ts) else none
  | _ => none

/-- `Foo` or `Foo<A, B>`. -/
def ty : Nat → P Ty
  | 0 => failure
  | fuel + 1 => do
    let n ← name
    if ← next (.sym '<') then
      text "<"
      let args ← sep (ty fuel) '>'
      pure (.app n args)
    else
      pure (.named n)

def anyTy : P Ty := fun ts => ty ts.length ts

/-! ### Codec classes -/

/-- A codec class is named after its family and the type that it is for. -/
def codecName (w : String) : Option (Kind × String) :=
  match dropEnd "IntoBuffers" w with
  | some id => some (.into, id)
  | none => (dropEnd "EmplaceToBuffers" w).map (fun id => (.emplace, id))

/-- `const CodecName()`, `const CodecName<A, B>()` or `const ListCodec<A>(const ElementCodec())`. -/
def codec : P Codec := do
  text "const"
  let w ← word
  let kb ← some! (codecName w)
  if ← next (.sym '(') then
    text "()"
    pure (.plain kb.1 kb.2)
  else
    text "<"
    let args ← sep anyTy '>'
    text "("
    if ← next (.sym ')') then
      text ")"
      pure (.generic kb.1 kb.2 args)
    else
      text "const"
      let w ← word
      let e ← some! (dropEnd "IntoBuffers" w)
      text "())"
      fits (kb.2 = "List")
      match args with
      | [a] => pure (.list kb.1 a e)
      | _ => failure

/-- `reader.readM()` -/
def primRead : P String := do
  text "reader."
  let w ← word
  let m ← some! (dropStart "read" w)
  text "()"
  pure m

/-- `reader.readM()` or `codec.read(reader)`. -/
def readE : P ReadE := do
  if ← next (.word "const") then
    let c ← codec
    text ".read(reader)"
    pure (.codec c)
  else
    let m ← primRead
    pure (.prim m)

/-- `model.f` -/
def place : P Acc := do
  text "model."
  let f ← name
  pure (.field f)

/-- `codec.read(reader, model.f);` or `model.f = e;` -/
def emplS : P EmplS := do
  if ← next (.word "const") then
    let c ← codec
    text ".read(reader,"
    let a ← place
    text ");"
    pure (.into c a)
  else
    let a ← place
    text "="
    let e ← readE
    text ";"
    pure (.assign a e)

/-- `codec.skip(reader, 1);` or `reader.readM();` -/
def skipS : P SkipS := do
  if ← next (.word "const") then
    let c ← codec
    text ".skip(reader, 1);"
    pure (.codec c)
  else
    let m ← primRead
    text ";"
    pure (.prim m)

/-- `codec.write(writer, model.f);` or `writer.writeM(model.f);` -/
def writeS : P WriteS := do
  if ← next (.word "const") then
    let c ← codec
    text ".write(writer,"
    let a ← place
    text ");"
    pure (.codec c a)
  else
    text "writer."
    let w ← word
    let m ← some! (dropStart "write" w)
    text "("
    let a ← place
    text ");"
    pure (.prim m a)

/-- `final x = e;` -/
def localS : P (String × ReadE) := do
  text "final"
  let x ← name
  text "="
  let e ← readE
  text ";"
  pure (x, e)

/-- `a: x,` -/
def arg : P (String × String) := do
  let a ← name
  text ":"
  let x ← name
  text ","
  pure (a, x)

def writeHead (id : String) : P Unit := do
  text "@override void write(BytesWriter writer,"
  the id
  text "model) {"

def skipHead : P Unit := text "@override void skip(BytesReader reader, int count) {"

def loopHead : P Unit := text "for (int i = 0; i < count; i += 1) {"

/-- What `write` and `skip` of a struct do. -/
def writes (id : String) : P (List WriteS) := do
  writeHead id
  until_ (.sym '}') writeS

def skips : P SkipBody := do
  skipHead
  let once ← star skipS
  loopHead
  let loop ← until_ (.sym '}') skipS
  text "}"
  pure ⟨once, loop⟩

/-- `final value = reader.readInt32(); switch (value) {` -/
def tagSwitch : P Unit := text "final value = reader.readInt32(); switch (value) {"

/-- The last case of a `switch`, after the word `default`, and the end of the `switch`. -/
def otherwise : P Unit := text ": throw StateError('Unsupported enum value: $value'); }"

/-- `EValue.const` -/
def constant (id : String) : P String := do
  the (id ++ "Value")
  text "."
  name

/-- `codec.read(reader, model.f);` -/
def payloadRead : P (Codec × String) := do
  let c ← codec
  text ".read(reader, model."
  let f ← name
  text ");"
  pure (c, f)

/-- `case p: final model = E(); model.value = EValue.c; codec.read(reader, model.f); return model;` -/
def readCaseInto (id : String) : P ReadCase := do
  text "case"
  let p ← num
  text ": final model ="
  the id
  text "(); model.value ="
  let c ← constant id
  text ";"
  let cf ← payloadRead
  text "return model;"
  pure ⟨p, c, cf.1, cf.2⟩

/-- `case p: model.value = EValue.c; codec.read(reader, model.f); return;` -/
def readCaseEmplace (id : String) : P ReadCase := do
  text "case"
  let p ← num
  text ": model.value ="
  let c ← constant id
  text ";"
  let cf ← payloadRead
  text "return;"
  pure ⟨p, c, cf.1, cf.2⟩

/-- `case EValue.c: writer.writeInt32(p); codec.write(writer, model.f); return;` -/
def writeCase (id : String) : P WriteCase := do
  text "case"
  let c ← constant id
  text ": writer.writeInt32("
  let p ← num
  text ");"
  let d ← codec
  text ".write(writer, model."
  let f ← name
  text "); return;"
  pure ⟨c, p, d, f⟩

/-- `case p: codec.skip(reader, 1); break;` -/
def skipCase : P SkipCase := do
  text "case"
  let p ← num
  text ":"
  let d ← codec
  text ".skip(reader, 1); break;"
  pure ⟨p, d⟩

/-- What `write` and `skip` of an enum do. -/
def enumWrites (id : String) : P (List WriteCase) := do
  writeHead id
  text "switch (model.value) {"
  let ws ← until_ (.sym '}') (writeCase id)
  text "}"
  pure ws

def enumSkips : P (List SkipCase) := do
  skipHead
  loopHead
  tagSwitch
  let ss ← until_ (.word "default") skipCase
  otherwise
  text "} }"
  pure ss

/-- The members of `XIntoBuffers`.  `read` is a list of `final x = e;`, then `return X(..);` in a struct; in an
enum the only local is the number and a `switch` follows. -/
def intoBody (id : String) : P CodecBody := do
  text "@override"
  the id
  text "read(BytesReader reader) {"
  let locals ← star localS
  if ← next (.word "return") then
    text "return"
    the id
    text "("
    let args ← until_ (.sym ')') arg
    text "; }"
    let ws ← writes id
    let sk ← skips
    pure (.structInto locals args ws sk)
  else
    match locals with
    | [("value", .prim "Int32")] =>
      text "switch (value) {"
      let rs ← until_ (.word "default") (readCaseInto id)
      otherwise
      text "}"
      let ws ← enumWrites id
      let ss ← enumSkips
      pure (.enumInto rs ws ss)
    | _ => failure

/-- The members of `XEmplaceToBuffers`. -/
def emplaceBody (id : String) : P CodecBody := do
  text "@override void read(BytesReader reader,"
  the id
  text "model) {"
  if ← next (.word "final") then
    tagSwitch
    let rs ← until_ (.word "default") (readCaseEmplace id)
    otherwise
    text "}"
    let ws ← enumWrites id
    let ss ← enumSkips
    pure (.enumEmplace rs ws ss)
  else
    let rs ← until_ (.sym '}') emplS
    let ws ← writes id
    let sk ← skips
    pure (.structEmplace rs ws sk)

def interface : Kind → P Unit
  | .into => text "implements IntoBuffers<"
  | .emplace => text "implements EmplaceToBuffers<"

def members (id : String) : Kind → P CodecBody
  | .into => intoBody id
  | .emplace => emplaceBody id

/-- `class XIntoBuffers implements IntoBuffers<X> { const XIntoBuffers(); .. }`, and the same with
`EmplaceToBuffers`. -/
def codecClass : P CodecClass := do
  text "class"
  let w ← name
  let kb ← some! (codecName w)
  interface kb.1
  the kb.2
  text "> { const"
  the w
  text "();"
  let body ← members kb.2 kb.1
  text "}"
  pure ⟨kb.2, body⟩

/-! ### Model classes -/

/-- `const XBuffersFactory().createDefault()`, also with types in angle brackets. -/
def factoryE : P DefE := do
  text "const"
  let w ← word
  let id ← some! (dropEnd "BuffersFactory" w)
  if ← next (.sym '(') then
    text "().createDefault()"
    pure (.factory id)
  else
    text "<"
    let args ← sep anyTy '>'
    text "().createDefault()"
    pure (.factoryG id args)

/-- `0`, `0.0`, `false` or the default of a factory. -/
def defE : P DefE
  | .word "0" :: ts => some (.zero, ts)
  | .word "0.0" :: ts => some (.zeroF, ts)
  | .word "false" :: ts => some (.no, ts)
  | ts => factoryE ts

/-- `class XBuffersFactory implements BuffersFactory<X> { const XBuffersFactory(); @override X createDefault() =>` -/
def factory (id : String) : P Unit := do
  text "class"
  the (id ++ "BuffersFactory")
  text "implements BuffersFactory<"
  the id
  text "> { const"
  the (id ++ "BuffersFactory")
  text "(); @override"
  the id
  text "createDefault() =>"

/-- `T f;` -/
def field : P (Ty × String) := do
  let t ← anyTy
  let f ← name
  text ";"
  pure (t, f)

/-- `required this.f,` -/
def ctorParam : P String := do
  text "required this."
  let f ← name
  text ","
  pure f

/-- `f = e` -/
def init : P (String × DefE) := do
  let f ← name
  text "="
  let e ← defE
  pure (f, e)

/-- A class with its factory: without fields it has a `const` constructor only; with fields it has a constructor
with named parameters and `X.createDefault()`. -/
def structClass : P StructClass := do
  text "class"
  let id ← name
  text "{"
  let fields ← star field
  match fields with
  | [] =>
    text "const"
    the id
    text "(); }"
    factory id
    text "const"
    the id
    text "(); }"
    pure ⟨id, [], [], []⟩
  | f :: fs =>
    the id
    text "({"
    let ctor ← until_ (.sym '}') ctorParam
    text ");"
    the id
    text ".createDefault() :"
    let inits ← sep init ';'
    text "}"
    factory id
    the id
    text ".createDefault(); }"
    pure ⟨id, f :: fs, ctor, inits⟩

/-- `const C()` or `C.createDefault()` -/
def newE : P NewE := do
  if ← next (.word "const") then
    text "const"
    let c ← name
    text "()"
    pure (.const c)
  else
    let c ← name
    text ".createDefault()"
    pure (.createDefault c)

/-- `C f = new;` -/
def payloadField : P (String × String × NewE) := do
  let c ← name
  let f ← name
  text "="
  let n ← newE
  text ";"
  pure (c, f, n)

/-- `T x,` and `required T x,` -/
def posParam : P (Ty × String) := do
  let t ← anyTy
  let x ← name
  text ","
  pure (t, x)

def namedParam : P (Ty × String) := do
  text "required"
  posParam

/-- `()`, `(T x, ..)` or `({required T x, ..})` -/
def params : P Params := do
  text "("
  if ← next (.sym ')') then
    text ")"
    pure .unit
  else if ← next (.sym '{') then
    text "{"
    let xs ← until_ (.sym '}') namedParam
    text ")"
    pure (.named xs)
  else
    let xs ← until_ (.sym ')') posParam
    pure (.positional xs)

/-- `f.a = x;` -/
def assign : P (String × String × String) := do
  let f ← name
  text "."
  let a ← name
  text "="
  let x ← name
  text ";"
  pure (f, a, x)

/-- `model.f.a = x;` -/
def modelAssign : P (String × String × String) := do
  text "model."
  assign

/-- The payload field that all assignments name, or `none_` if there is no assignment; and the assignments without
it. -/
def sameField (none_ : String) : List (String × String × String) → Option (String × List (String × String))
  | [] => some (none_, [])
  | (f, a) :: rest => if rest.all (fun x => x.1 = f) then some (f, a :: rest.map (·.2)) else none

/-- `void toV() => value = EValue.c;`, or with a body that also assigns the payload. -/
def toMethod (id : String) : P VMethod := do
  text "void"
  let w ← word
  let v ← some! (dropStart "to" w)
  let ps ← params
  if ← next (.sym '=') then
    match ps with
    | .unit =>
      text "=> value ="
      let c ← constant id
      text ";"
      pure ⟨v, c, c, .unit, []⟩
    | _ => failure
  else
    text "{ value ="
    let c ← constant id
    text ";"
    let as ← until_ (.sym '}') assign
    let fa ← some! (sameField c as)
    fits (match ps with | .unit => false | _ => true)
    pure ⟨v, c, fa.1, ps, fa.2⟩

/-- `bool isV() => value == EValue.c;` -/
def isMethod (id : String) : P (String × String) := do
  text "bool"
  let w ← word
  let v ← some! (dropStart "is" w)
  text "() => value =="
  let c ← constant id
  text ";"
  pure (v, c)

/-- `static E createV(..) { final model = E(); model.value = EValue.c; model.f.a = x; .. return model; }` -/
def createMethod (id : String) : P VMethod := do
  text "static"
  the id
  let w ← word
  let v ← some! (dropStart "create" w)
  let ps ← params
  text "{ final model ="
  the id
  text "(); model.value ="
  let c ← constant id
  text ";"
  let as ← star modelAssign
  text "return model; }"
  let fa ← some! (sameField c as)
  pure ⟨v, c, fa.1, ps, fa.2⟩

/-- `c,` -/
def constName : P String := do
  let c ← name
  text ","
  pure c

/-- `enum EValue { .. } class E { .. }` and the factory. -/
def enumClass : P EnumClass := do
  text "enum"
  let w ← name
  let id ← some! (dropEnd "Value" w)
  text "{"
  let consts ← until_ (.sym '}') constName
  text "class"
  the id
  text "{"
  the w
  text "value ="
  let first ← constant id
  text ";"
  let payloads ← star payloadField
  let tos ← star (toMethod id)
  let isses ← star (isMethod id)
  let creates ← star (createMethod id)
  text "}"
  factory id
  the id
  text "(); }"
  pure ⟨id, consts, first, payloads, tos, isses, creates⟩

/-- A struct, or an enum with the classes of its variants, one for each constant. -/
def classItem : P ClassItem := do
  if ← next (.word "enum") then
    let c ← enumClass
    let vs ← times structClass c.consts.length
    pure (.enum c vs)
  else
    let c ← structClass
    pure (.struct c)

/-! ### Sections -/

/-- The section with the model classes. -/
def readItems (s : String) : Option (List ClassItem) := whole classItem s

/-- The section with the codec classes. -/
def readCodecs (s : String) : Option (List CodecClass) := whole codecClass s

/-- The program that the two sections denote. -/
def readProgram (models buffers : String) : Option Prog :=
  match readItems models, readCodecs buffers with
  | some items, some codecs => some ⟨items, codecs⟩
  | _, _ => none

/-! ### Schemas -/

/-- Schemas whose names, in the spelling of Dart, are names in Dart, and in which no variant has empty
parentheses. -/
structure DartReadable (x : Ext) (S : List ASTNode) : Prop where
  types : ∀ d ∈ S, ∀ t ∈ directTypes d, ∀ w ∈ typeWords t, DartName w
  structs : ∀ n, .struct n ∈ S → DartName n.id ∧ ∀ f ∈ dartFieldNames x n, DartName f
  enums : ∀ n, .enum n ∈ S → isIdent n.id = true
  variants : ∀ n, .enum n ∈ S → ∀ i ∈ n.items, DartName (n.id ++ i.id) ∧ DartName (x.camel i.id) ∧
    isIdent ("to" ++ x.pascal i.id) = true ∧ ∀ f ∈ dartPayloadNames x i, DartName f
  payloads : ∀ n, .enum n ∈ S → ∀ p id, .tuple p id [] ∉ n.items

end TPB.Spec.DartReader

namespace TPB.Dart
open Spec.DartReader

/-- `P` is the program of the Dart text generated for `S`: the text is printed from `P`, and if the names of the schema
can be names in Dart, `P` is what the reader above finds in the characters of the text. -/
def Emits (x : Ext) (S : List ASTNode) (P : Prog) : Prop :=
  Prints x S P ∧ (DartReadable x S → ∀ m b, DartGen.models x S = .ok m → DartGen.buffers x S = .ok b →
    readProgram m b = some P)

end TPB.Dart
