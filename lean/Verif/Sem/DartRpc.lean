/-
Syntax of the Dart code that the generator emits for methods (the rpc client class), with its rendering to
text.

`gen*` builds the tree for a schema; `Proofs/DartRpcText.lean` proves that printing the tree gives exactly
the text that `Model/DartGen.lean` produces.
-/
import Verif.Sem.DartIR
import Verif.Sem.RustRpc
namespace TPB.Dart
open Rust (Buf)

/-- `TechPawsRuntimeRpcMethodBuffer.server,` -/
def bufText : Buf → String
  | .server => "TechPawsRuntimeRpcMethodBuffer.server,"
  | .client => "TechPawsRuntimeRpcMethodBuffer.client,"

/-- Statements of a closure `(writer) { .. }`. -/
inductive WStmt where
  /-- `writer.writeInt8(TechPawsRpcBufferStatus.hasData.value);` -/
  | status
  /-- `writer.writeInt64(methodId);` -/
  | methodId
  /-- write an argument -/
  | arg (w : WriteS)
  deriving Repr, Inhabited

/-- Statements of a closure `(reader) { .. }`. -/
inductive RStmt where
  /-- `final status = reader.readInt8();` -/
  | letStatus
  /-- `if (status != TechPawsRpcBufferStatus.hasData.value) { .. }` with `throw StateError('No data');` or
  `return;` -/
  | ifNoData (throws : Bool)
  /-- `final methodId = reader.readInt64();` -/
  | letMethodId
  /-- `final result = e;` -/
  | letResult (e : ReadE)
  /-- `v[methodId]?.complete(result);` or `v[methodId]?.complete();` -/
  | complete (v : String) (res : Bool)
  /-- `v.remove(methodId);` -/
  | remove (v : String)
  /-- `v.add(result);` or `v.add(null);` -/
  | add (v : String) (res : Bool)
  /-- `return e;` -/
  | ret (e : ReadE)
  /-- an empty line -/
  | blank
  deriving Repr, Inhabited

/-- Statements of methods. -/
inductive DStmt where
  /-- `_scheduler.syncWrite(_scopeId, addr, b, (writer) { .. });`, or `_scheduler.write` if `!sync` -/
  | write (sync : Bool) (addr : Nat) (b : Buf) (ws : List WStmt)
  /-- `_scheduler.loopSyncGroup();` -/
  | loop
  /-- `final result = _scheduler.syncRead<ty>(_scopeId, addr, b, (reader) { .. });` -/
  | syncRead (ty : Ty) (addr : Nat) (b : Buf) (body : List RStmt)
  /-- `return result;` -/
  | retResult
  /-- `final methodId = v;` -/
  | letMethodId (v : String)
  /-- `v = rotateMethodId(v);` -/
  | rotate (v : String)
  /-- `final completer = Completer<ty>();` -/
  | letCompleter (ty : Ty)
  /-- `v[methodId] = completer;` -/
  | store (v : String)
  /-- `return completer.future;` -/
  | retFuture
  /-- `v = _scheduler.read(_scopeId, addr, b, (reader) { .. });` -/
  | connect (v : String) (addr : Nat) (b : Buf) (body : List RStmt)
  /-- an empty line -/
  | blank
  deriving Repr, Inhabited

/-- A method: `ret name({required ty p, ..}) { .. }`; `Future<ret>` if `future`. -/
structure DMethod where
  future : Bool
  ret : Ty
  name : String
  params : List (Ty × String)
  body : List DStmt
  deriving Repr, Inhabited

/-- Members of the client class. -/
inductive Member where
  /-- `int v = 0;` -/
  | lastId (v : String)
  /-- `final v = <int, Completer<ty>>{};` -/
  | completers (v : String) (ty : Ty)
  /-- `late final TechPawsRuntimeRpcReadTask v;` -/
  | task (v : String)
  /-- `final v = StreamController<ty>.broadcast();` -/
  | controller (v : String) (ty : Ty)
  /-- an empty line -/
  | blank
  deriving Repr, Inhabited

/-- `Stream<ty> get name => controller.stream;` -/
structure Getter where
  ty : Ty
  name : String
  controller : String
  deriving Repr, Inhabited

/-- Statements of `disconnect`. -/
inductive DiscS where
  /-- `_scheduler.disconnect(v);` -/
  | disconnect (v : String)
  /-- `v.close();` -/
  | close (v : String)
  deriving Repr, Inhabited, DecidableEq

/-- The client class.  `connects` are the methods called by the constructor; `sep` says whether an empty
line precedes the methods. -/
structure Client where
  name : String
  scope : String
  connects : List String
  members : List Member
  getters : List Getter
  disconnect : List DiscS
  sep : Bool
  methods : List DMethod
  deriving Repr, Inhabited

/-! ### Rendering -/

def WStmt.render : WStmt → String
  | .status => "writer.writeInt8(TechPawsRpcBufferStatus.hasData.value);"
  | .methodId => "writer.writeInt64(methodId);"
  | .arg w => w.render

def RStmt.render (t : Nat) : RStmt → List Line
  | .letStatus => [(t, "final status = reader.readInt8();")]
  | .ifNoData throws =>
    [(t, "if (status != TechPawsRpcBufferStatus.hasData.value) {"),
     (t + 1, if throws then "throw StateError('No data');" else "return;"), (t, "}")]
  | .letMethodId => [(t, "final methodId = reader.readInt64();")]
  | .letResult e => [(t, "final result = " ++ e.render ++ ";")]
  | .complete v res => [(t, v ++ (if res then "[methodId]?.complete(result);" else "[methodId]?.complete();"))]
  | .remove v => [(t, v ++ ".remove(methodId);")]
  | .add v res => [(t, v ++ (if res then ".add(result);" else ".add(null);"))]
  | .ret e => [(t, "return " ++ e.render ++ ";")]
  | .blank => [(0, "")]

def renderWriter (t addr : Nat) (b : Buf) (ws : List WStmt) : List Line :=
  [(t + 1, "_scopeId,"), (t + 1, toString addr ++ ","), (t + 1, bufText b), (t + 1, "(writer) {")]
    ++ ws.map (fun w => (t + 2, w.render)) ++ [(t + 1, "},"), (t, ");")]

def renderReader (t addr : Nat) (b : Buf) (body : List RStmt) : List Line :=
  [(t + 1, "_scopeId,"), (t + 1, toString addr ++ ","), (t + 1, bufText b), (t + 1, "(reader) {")]
    ++ body.flatMap (RStmt.render (t + 2)) ++ [(t + 1, "},"), (t, ");")]

def DStmt.render (t : Nat) : DStmt → List Line
  | .write sync addr b ws =>
    (t, if sync then "_scheduler.syncWrite(" else "_scheduler.write(") :: renderWriter t addr b ws
  | .loop => [(t, "_scheduler.loopSyncGroup();")]
  | .syncRead ty addr b body =>
    (t, "final result = _scheduler.syncRead<" ++ ty.render ++ ">(") :: renderReader t addr b body
  | .retResult => [(t, "return result;")]
  | .letMethodId v => [(t, "final methodId = " ++ v ++ ";")]
  | .rotate v => [(t, v ++ " = rotateMethodId(" ++ v ++ ");")]
  | .letCompleter ty => [(t, "final completer = Completer<" ++ ty.render ++ ">();")]
  | .store v => [(t, v ++ "[methodId] = completer;")]
  | .retFuture => [(t, "return completer.future;")]
  | .connect v addr b body => (t, v ++ " = _scheduler.read(") :: renderReader t addr b body
  | .blank => [(0, "")]

/-- The first lines of a method. -/
def DMethod.renderHead (m : DMethod) : List Line :=
  let ret := if m.future then "Future<" ++ m.ret.render ++ ">" else m.ret.render
  match m.params with
  | [] => [(1, ret ++ " " ++ m.name ++ "() {")]
  | ps => [(1, ret ++ " " ++ m.name ++ "({")]
      ++ ps.map (fun p => (2, "required " ++ p.1.render ++ " " ++ p.2 ++ ",")) ++ [(1, "}) {")]

def DMethod.render (m : DMethod) : List Line :=
  m.renderHead ++ m.body.flatMap (DStmt.render 2) ++ [(1, "}")]

def Member.render : Member → Line
  | .lastId v => (1, "int " ++ v ++ " = 0;")
  | .completers v ty => (1, "final " ++ v ++ " = <int, Completer<" ++ ty.render ++ ">>{};")
  | .task v => (1, "late final TechPawsRuntimeRpcReadTask " ++ v ++ ";")
  | .controller v ty => (1, "final " ++ v ++ " = StreamController<" ++ ty.render ++ ">.broadcast();")
  | .blank => (0, "")

def Getter.render (g : Getter) : List Line :=
  [(0, ""), (1, "Stream<" ++ g.ty.render ++ "> get " ++ g.name ++ " => " ++ g.controller ++ ".stream;")]

def DiscS.render : DiscS → Line
  | .disconnect v => (2, "_scheduler.disconnect(" ++ v ++ ");")
  | .close v => (2, v ++ ".close();")

def Client.renderConstructor (c : Client) : List Line :=
  match c.connects with
  | [] => [(1, c.name ++ "(this._scheduler);")]
  | ns => [(1, c.name ++ "(this._scheduler) {")] ++ ns.map (fun n => (2, n ++ "();")) ++ [(1, "}")]

def Client.render (c : Client) : List Line :=
  [(0, "class " ++ c.name ++ " {")] ++ c.renderConstructor
    ++ [(0, ""), (1, "final TechPawsRuntimeRpcScheduler _scheduler;"),
        (1, "static const _scopeId = '" ++ c.scope ++ "';")]
    ++ c.members.map Member.render ++ c.getters.flatMap Getter.render
    ++ [(0, ""), (1, "void disconnect() {")] ++ c.disconnect.map DiscS.render ++ [(1, "}")]
    ++ (if c.sep then [(0, "")] else []) ++ joinBlocks (c.methods.map DMethod.render) ++ [(0, "}")]

/-! ### From methods to trees -/

section
variable (x : Ext)
open DartGen (varLastMethodId varMethodCompleters varReadTask varReadStreamController)

/-- The type of a result: `void` if there is none. -/
def retTy (f : FnNode) : Ty :=
  match f.returnTypeId with
  | some t => genTy t
  | none => .named "void"

def genParams (f : FnNode) : List (Ty × String) := f.args.map (fun a => (genTy a.typeId, x.camel a.id))

def genArgWrites (f : FnNode) : List WStmt :=
  f.args.map (fun a => .arg (genWrite .into a.typeId (.var (x.camel a.id))))

def genSyncResult (f : FnNode) : List DStmt :=
  match f.returnTypeId with
  | some t => [.syncRead (genTy t) f.position .client [.letStatus, .blank, .ifNoData true, .blank, .ret (genRead t)],
      .blank, .retResult]
  | none => []

def genSync (f : FnNode) : DMethod where
  future := false
  ret := retTy f
  name := x.camel f.id
  params := genParams x f
  body := [.write true f.position .server (.status :: genArgWrites x f), .blank, .loop, .blank] ++ genSyncResult f

/-- Name of the method that registers the reader of a method's answers. -/
def connectName (f : FnNode) : String := "_connect" ++ x.pascal f.id

/-- The first statements of the reader of a method's answers. -/
def genReaderHead : List RStmt := [.letStatus, .blank, .ifNoData false, .blank]

def genComplete (f : FnNode) : List RStmt :=
  match f.returnTypeId with
  | some t => [.letResult (genRead t), .blank, .complete (varMethodCompleters x f) true]
  | none => [.blank, .complete (varMethodCompleters x f) false]

def genAsyncConnect (f : FnNode) : DMethod where
  future := false
  ret := .named "void"
  name := connectName x f
  params := []
  body := [.connect (varReadTask x f) f.position .client
    (genReaderHead ++ [.letMethodId] ++ genComplete x f ++ [.remove (varMethodCompleters x f)])]

def genAsync (f : FnNode) : DMethod where
  future := true
  ret := retTy f
  name := x.camel f.id
  params := genParams x f
  body := [.letMethodId (varLastMethodId x f), .rotate (varLastMethodId x f), .blank,
    .write false f.position .server (.status :: .methodId :: genArgWrites x f), .blank,
    .letCompleter (retTy f), .store (varMethodCompleters x f), .blank, .retFuture]

def genAdd (f : FnNode) : List RStmt :=
  match f.returnTypeId with
  | some t => [.letResult (genRead t), .add (varReadStreamController x f) true]
  | none => [.add (varReadStreamController x f) false]

def genReadConnect (f : FnNode) : DMethod where
  future := false
  ret := .named "void"
  name := connectName x f
  params := []
  body := [.connect (varReadTask x f) f.position .client (genReaderHead ++ genAdd x f)]

/-- The methods of the client class for a method of the schema. -/
def genDMethods (f : FnNode) : List DMethod :=
  if f.isRead then [genReadConnect x f]
  else if f.isAsync then [genAsyncConnect x f, genAsync x f]
  else [genSync x f]

def genMembers (f : FnNode) : List Member :=
  if f.isRead then [.blank, .task (varReadTask x f), .controller (varReadStreamController x f) (retTy f)]
  else if f.isAsync then
    [.blank, .lastId (varLastMethodId x f), .completers (varMethodCompleters x f) (retTy f), .task (varReadTask x f)]
  else []

def genGetters (f : FnNode) : List Getter :=
  if f.isRead then [⟨retTy f, x.camel f.id, varReadStreamController x f⟩] else []

def genConnects (f : FnNode) : List String := if f.isAsync || f.isRead then [connectName x f] else []

def genDisc (f : FnNode) : List DiscS :=
  if f.isRead then [.disconnect (varReadTask x f), .close (varReadStreamController x f)]
  else if f.isAsync then [.disconnect (varReadTask x f)]
  else []

def genClient (ns scope : String) (S : List ASTNode) : Client where
  name := x.pascal ns ++ "RpcClient"
  scope := scope
  connects := (findFnNodes S).flatMap (genConnects x)
  members := (findFnNodes S).flatMap (genMembers x)
  getters := (findFnNodes S).flatMap (genGetters x)
  disconnect := (findFnNodes S).flatMap (genDisc x)
  sep := decide ((findFnNodes S).length > 1)
  methods := (findFnNodes S).flatMap (genDMethods x)

end

end TPB.Dart
