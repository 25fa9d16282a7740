/-
A reader of Dart source text: from the characters of the generated section for methods (the client class) to the
tree of `Sem/DartRpc.lean`.

It is written from the grammar of the language fragment, without reference to the generator or to the functions
that print trees.  Line ends are dropped, so the tree that is read has no empty lines.
-/
import Verif.Sem.DartRpcEval
import Verif.Spec.DartReader
import Verif.Spec.RpcDart
import Verif.Spec.Directives
namespace TPB.Spec.DartRpcReader
open Dart Pieces Combinators DartReader DartRules
open Rust (Buf)

/-- One of two words. -/
def either {α : Type} (a : String) (x : α) (b : String) (y : α) : P α := do
  if ← next (.word a) then
    the a
    pure x
  else
    the b
    pure y

/-- A type or `void`. -/
def resultTy : P Ty := do
  if ← next (.word "void") then
    the "void"
    pure (.named "void")
  else anyTy

/-! ### Closures -/

/-- `_scopeId, addr, TechPawsRuntimeRpcMethodBuffer.server,` or `.client,` -/
def target : P (Nat × Buf) := do
  text "_scopeId,"
  let a ← Combinators.num
  text ", TechPawsRuntimeRpcMethodBuffer."
  let b ← either "server" Buf.server "client" Buf.client
  text ","
  pure (a, b)

/-- A statement of a closure `(writer) { .. }`: `writer.writeM(v);`, where `v` may be the status `hasData`, or
`codec.write(writer, v);`. -/
def wstmt : P WStmt := do
  if ← next (.word "const") then
    let c ← codec
    text ".write(writer,"
    let v ← name
    text ");"
    pure (.arg (.codec c (.var v)))
  else
    text "writer."
    let w ← word
    let m ← some! (dropStart "write" w)
    text "("
    let v ← name
    if ← next (.sym '.') then
      fits (m == "Int8" && v == "TechPawsRpcBufferStatus")
      text ".hasData.value);"
      pure .status
    else
      text ");"
      pure (if m = "Int64" ∧ v = "methodId" then .methodId else .arg (.prim m (.var v)))

/-- What follows `final` in a closure `(reader) { .. }`. -/
def rlet : P RStmt := do
  text "final"
  if ← next (.word "status") then
    text "status = reader.readInt8();"
    pure .letStatus
  else if ← next (.word "methodId") then
    text "methodId = reader.readInt64();"
    pure .letMethodId
  else
    text "result ="
    let e ← readE
    text ";"
    pure (.letResult e)

/-- A statement of a closure `(reader) { .. }`. -/
def rstmt : P RStmt := do
  if ← next (.word "final") then rlet
  else if ← next (.word "if") then
    text "if (status != TechPawsRpcBufferStatus.hasData.value) {"
    if ← next (.word "throw") then
      text "throw StateError('No data'); }"
      pure (.ifNoData true)
    else
      text "return; }"
      pure (.ifNoData false)
  else if ← next (.word "return") then
    text "return"
    let e ← readE
    text ";"
    pure (.ret e)
  else
    let v ← name
    if ← next (.sym '[') then
      text "[methodId]?.complete("
      if ← next (.sym ')') then
        text ");"
        pure (.complete v false)
      else
        text "result);"
        pure (.complete v true)
    else
      text "."
      if ← next (.word "remove") then
        text "remove(methodId);"
        pure (.remove v)
      else
        text "add("
        if ← next (.word "null") then
          text "null);"
          pure (.add v false)
        else
          text "result);"
          pure (.add v true)

/-- The arguments of `read` and `syncRead`. -/
def reading : P ((Nat × Buf) × List RStmt) := do
  let t ← target
  text "(reader) {"
  let body ← until_ (.sym '}') rstmt
  text ", );"
  pure (t, body)

/-! ### Methods -/

/-- What follows `final` in a method. -/
def dlet : P DStmt := do
  text "final"
  if ← next (.word "result") then
    text "result = _scheduler.syncRead<"
    let ty ← anyTy
    text ">("
    let r ← reading
    pure (.syncRead ty r.1.1 r.1.2 r.2)
  else if ← next (.word "methodId") then
    text "methodId ="
    let v ← name
    text ";"
    pure (.letMethodId v)
  else
    text "completer = Completer<"
    let ty ← resultTy
    text ">();"
    pure (.letCompleter ty)

/-- A statement of a method. -/
def dstmt : P DStmt := do
  if ← next (.word "final") then dlet
  else if ← next (.word "_scheduler") then
    text "_scheduler."
    if ← next (.word "loopSyncGroup") then
      text "loopSyncGroup();"
      pure .loop
    else
      let s ← either "syncWrite" true "write" false
      text "("
      let t ← target
      text "(writer) {"
      let ws ← until_ (.sym '}') wstmt
      text ", );"
      pure (.write s t.1 t.2 ws)
  else if ← next (.word "return") then
    text "return"
    if ← next (.word "result") then
      text "result;"
      pure .retResult
    else
      text "completer.future;"
      pure .retFuture
  else
    let v ← name
    if ← next (.sym '[') then
      text "[methodId] = completer;"
      pure (.store v)
    else
      text "="
      if ← next (.word "rotateMethodId") then
        text "rotateMethodId("
        the v
        text ");"
        pure (.rotate v)
      else
        text "_scheduler.read("
        let r ← reading
        pure (.connect v r.1.1 r.1.2 r.2)

/-- `T` or `Future<T>`. -/
def returns : P (Bool × Ty) := do
  if ← next (.word "Future") then
    text "Future<"
    let t ← resultTy
    text ">"
    pure (true, t)
  else
    let t ← resultTy
    pure (false, t)

/-- `()` or `({required T x, ..})` -/
def parameters : P (List (Ty × String)) := do
  text "("
  if ← next (.sym ')') then
    text ")"
    pure []
  else
    text "{"
    let ps ← until_ (.sym '}') namedParam
    text ")"
    pure ps

/-- `T name(..) { .. }` -/
def method : P DMethod := do
  let t ← returns
  let n ← name
  let ps ← parameters
  text "{"
  let body ← until_ (.sym '}') dstmt
  pure ⟨t.1, t.2, n, ps, body⟩

/-! ### The class -/

/-- A variable of the class. -/
def member : P Member := do
  if ← next (.word "int") then
    text "int"
    let v ← name
    text "= 0;"
    pure (.lastId v)
  else if ← next (.word "late") then
    text "late final TechPawsRuntimeRpcReadTask"
    let v ← name
    text ";"
    pure (.task v)
  else
    text "final"
    let v ← name
    text "="
    if ← next (.sym '<') then
      text "<int, Completer<"
      let t ← resultTy
      text ">>{};"
      pure (.completers v t)
    else
      text "StreamController<"
      let t ← resultTy
      text ">.broadcast();"
      pure (.controller v t)

/-- `Stream<T> get name => controller.stream;` -/
def getter : P Getter := do
  text "Stream<"
  let t ← resultTy
  text "> get"
  let n ← name
  text "=>"
  let c ← name
  text ".stream;"
  pure ⟨t, n, c⟩

/-- A statement of `disconnect`. -/
def disc : P DiscS := do
  if ← next (.word "_scheduler") then
    text "_scheduler.disconnect("
    let v ← name
    text ");"
    pure (.disconnect v)
  else
    let v ← name
    text ".close();"
    pure (.close v)

/-- `f();` -/
def call : P String := do
  let f ← name
  text "();"
  pure f

/-- `Name(this._scheduler);`, or with a body that calls methods. -/
def constructor (n : String) : P (List String) := do
  the n
  text "(this._scheduler)"
  if ← next (.sym ';') then
    text ";"
    pure []
  else
    text "{"
    until_ (.sym '}') call

/-- Words with hyphens between them. -/
def hyphens : Nat → P String
  | 0 => failure
  | fuel + 1 => do
    let w ← word
    if ← next (.sym '-') then
      text "-"
      let r ← hyphens fuel
      pure (w ++ "-" ++ r)
    else
      pure w

/-- `'id'` -/
def quoted : P String := do
  text "'"
  let s ← fun ts => hyphens ts.length ts
  text "'"
  pure s

/-- The client class. -/
def client : P Client := do
  text "class"
  let n ← name
  text "{"
  let cs ← constructor n
  text "final TechPawsRuntimeRpcScheduler _scheduler; static const _scopeId ="
  let s ← quoted
  text ";"
  let ms ← star member
  let gs ← star getter
  text "void disconnect() {"
  let ds ← until_ (.sym '}') disc
  let ds' ← until_ (.sym '}') method
  pure ⟨n, s, cs, ms, gs, ds, false, ds'⟩

/-- The section for methods.  Spaces between pieces mean nothing except in quotes, so the text must contain the id as
it has been read. -/
def readClient (s : String) : Option Client := do
  let ts ← pieces s
  let (c, rest) ← client ts
  if rest = [] ∧ ("'" ++ c.scope ++ "'").toList <:+: s.toList then some c else none

end TPB.Spec.DartRpcReader

namespace TPB.Spec
open DartRules

/-- An id that is made of words with hyphens between them. -/
def HyphenId (scope : String) : Prop :=
  ∃ ws : List String, ws ≠ [] ∧ (∀ w ∈ ws, w ≠ "" ∧ ∀ c ∈ w.toList, isWordChar c = true) ∧ scope = "-".intercalate ws

/-- Every name of the client class, in the spelling of Dart, can be a name there, and the names of arguments and
results are not those that the generated statements use themselves. -/
structure DartRpcReadable (x : Ext) (S : List ASTNode) (ns scope : String) : Prop where
  client : DartName (x.pascal ns ++ "RpcClient")
  scope : HyphenId scope
  methods : ∀ f ∈ methodsOf S, DartName (x.camel f.id) ∧ isIdent ("_" ++ x.pascal f.id) = true
  args : ∀ f ∈ methodsOf S, ∀ a ∈ f.args, DartName (x.camel a.id) ∧ x.camel a.id ≠ "methodId" ∧
    ∀ w ∈ typeWords a.typeId, DartName w
  results : ∀ f ∈ methodsOf S, ∀ t, f.returnTypeId = some t → ∀ w ∈ typeWords t, DartName w ∧ w ≠ "Future"

end TPB.Spec

namespace TPB.Dart

/-- Not an empty line. -/
def RStmt.solid : RStmt → Bool
  | .blank => false
  | _ => true

/-- A reading closure without empty lines. -/
def trimR (ss : List RStmt) : List RStmt := ss.filter RStmt.solid

def DStmt.solid : DStmt → Bool
  | .blank => false
  | _ => true

/-- A statement whose closures have no empty lines. -/
def DStmt.trim : DStmt → DStmt
  | .syncRead ty a b body => .syncRead ty a b (trimR body)
  | .connect v a b body => .connect v a b (trimR body)
  | s => s

def trimD (ss : List DStmt) : List DStmt := (ss.filter DStmt.solid).map DStmt.trim

/-- A method without empty lines. -/
def DMethod.trim (m : DMethod) : DMethod := { m with body := trimD m.body }

def Member.solid : Member → Bool
  | .blank => false
  | _ => true

/-- A client class without empty lines. -/
def Client.trim (c : Client) : Client :=
  { c with members := c.members.filter Member.solid, sep := false, methods := c.methods.map DMethod.trim }

open Spec Spec.DartRpcReader

/-- `C` is the client class of the Dart text generated for `S`: the text is printed from `C`, and if the names of the
schema can be names in Dart, `C` without its empty lines is what the reader above finds in the characters of the
text. -/
def EmitsRpc (x : Ext) (S : List ASTNode) (C : Client) : Prop :=
  PrintsRpc x S C ∧ ∀ ns scope, DirectiveIs S "namespace" ns → DirectiveIs S "id" scope → DartRpcReadable x S ns scope →
    ∀ t, DartGen.rpcMethods x S = .ok t → readClient t = some C.trim

end TPB.Dart
