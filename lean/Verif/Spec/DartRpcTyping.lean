/-
A type checker's view of the emitted Dart RPC client class: when the Dart compiler accepts it, as far as
names and types go, in a file with model and codec classes (`Spec/DartTyping.lean`).  It speaks about the
trees of `Sem/DartRpc.lean`, whose text is the generated class.

Names are resolved through the scopes of closures, method bodies, parameters, the class and the file.  A
variable of a block hides outer names in the whole block, also before its declaration, where it cannot be
used.  A class of the file hides imported ones (`DartLib.hide`).  Not covered: flow analysis of `late`
members, constant evaluation, lints.

The second half says in terms of the schema when the rules are met.
-/
import Verif.Sem.DartRpc
import Verif.Spec.DartTyping
import Verif.Spec.RpcDart
namespace TPB.Spec.DartRules
open Dart

/-- The imported libraries, seen from a file that declares a class `c`. -/
def DartLib.hide (L : DartLib) (c : String) : DartLib where
  types id n := id ≠ c ∧ L.types id n
  codecs k b := b ≠ c ∧ b ++ k.suffix ≠ c ∧ L.codecs k b
  genericCodecs k b n := b ≠ c ∧ b ++ k.suffix ≠ c ∧ L.genericCodecs k b n
  factories id := id ≠ c ∧ id ++ "BuffersFactory" ≠ c ∧ L.factories id
  genericFactories id n := id ≠ c ∧ id ++ "BuffersFactory" ≠ c ∧ L.genericFactories id n
  elements e t := e ++ "IntoBuffers" ≠ c ∧ c ∉ t.names ∧ L.elements e t

/-! ### Names of the class -/

def memberName : Member → List String
  | .lastId v => [v]
  | .completers v _ => [v]
  | .task v => [v]
  | .controller v _ => [v]
  | .blank => []

/-- All members of the client class, apart from the constructor. -/
def classNames (c : Client) : List String :=
  ["_scheduler", "_scopeId", "disconnect"] ++ c.members.flatMap memberName ++ c.getters.map (·.name)
    ++ c.methods.map (·.name)

/-- What surrounds a statement: the imported libraries, the file, the class, and the names of the class. -/
structure ClassEnv where
  L : DartLib
  F : DartFile
  c : Client

/-- A name of the core or runtime library means what it should in the class: no class of the file and no
member has it. -/
def ClassEnv.Lib (E : ClassEnv) (n : String) : Prop := n ∉ E.c.name :: E.F.names ∧ n ∉ classNames E.c

/-- A type of a result: `void` or a type that is not hidden by members. -/
def ClassEnv.Result (E : ClassEnv) (t : Ty) : Prop :=
  t = .named "void" ∨ (TypeTyped E.L E.F.names t ∧ Free (classNames E.c) t.names)

/-! ### Closures and methods -/

/-- Variables of blocks, innermost first; `none`: the variable is not of a type of the schema, or not
declared yet. -/
abbrev Scope := List (String × Option Ty)

def Scope.names (V : Scope) : List String := V.map (·.1)

/-- The variables with their types; a variable that is hidden by another one does not count. -/
def Scope.places (V : Scope) : List (Acc × Ty) :=
  V.filterMap (fun v => match V.lookup v.1 with | some (some t) => some (.var v.1, t) | _ => none)

/-- A statement of a closure with the parameter `writer` in the scope `V`. -/
def WStmtTyped (E : ClassEnv) (V : Scope) : WStmt → Prop
  | .status => E.Lib "TechPawsRpcBufferStatus" ∧ "TechPawsRpcBufferStatus" ∉ V.names
  | .methodId => V.lookup "methodId" = some (some (.named "int"))
  | .arg w => WriteTyped E.L E.F (V.names ++ classNames E.c) V.places w

/-- The variables that a reader declares. -/
def readerLocals : List RStmt → List String
  | [] => []
  | .letStatus :: r => "status" :: readerLocals r
  | .letMethodId :: r => "methodId" :: readerLocals r
  | .letResult _ :: r => "result" :: readerLocals r
  | _ :: r => readerLocals r

/-- The statements of a closure with the parameter `reader` and the variables `N` in scope, of which `vs`
are declared; the closure returns a value of type `ret`, or nothing. -/
def ReaderTyped (E : ClassEnv) (N : List String) (ret : Option Ty) : List (String × Ty) → List RStmt → Prop
  | _, [] => ret = none
  | vs, .letStatus :: r => ReaderTyped E N ret (("status", .named "int") :: vs) r
  | vs, .ifNoData throws :: r => ("status", .named "int") ∈ vs ∧ E.Lib "TechPawsRpcBufferStatus" ∧
      "TechPawsRpcBufferStatus" ∉ N ∧
      (if throws then E.Lib "StateError" ∧ "StateError" ∉ N else ret = none) ∧ ReaderTyped E N ret vs r
  | vs, .letMethodId :: r => ReaderTyped E N ret (("methodId", .named "int") :: vs) r
  | vs, .letResult e :: r => ∃ t, ReadTyped E.L E.F (N ++ classNames E.c) e t ∧ ReaderTyped E N ret (("result", t) :: vs) r
  | vs, .complete v res :: r => ("methodId", .named "int") ∈ vs ∧ v ∉ N ∧
      (∃ t, .completers v t ∈ E.c.members ∧ if res then ("result", t) ∈ vs else t = .named "void") ∧ ReaderTyped E N ret vs r
  | vs, .remove v :: r => ("methodId", .named "int") ∈ vs ∧ v ∉ N ∧ (∃ t, .completers v t ∈ E.c.members) ∧
      ReaderTyped E N ret vs r
  | vs, .add v res :: r => v ∉ N ∧
      (∃ t, .controller v t ∈ E.c.members ∧ if res then ("result", t) ∈ vs else t = .named "void") ∧ ReaderTyped E N ret vs r
  | _, .ret e :: r => (∃ t, ret = some t ∧ ReadTyped E.L E.F (N ++ classNames E.c) e t) ∧ r = []
  | vs, .blank :: r => ReaderTyped E N ret vs r

/-- A closure `(reader) { .. }` where the variables `N` are in scope. -/
def ReaderClosure (E : ClassEnv) (N : List String) (ret : Option Ty) (body : List RStmt) : Prop :=
  (readerLocals body).Nodup ∧ ReaderTyped E ("reader" :: (readerLocals body ++ N)) ret [] body

/-- The variables that the body of a method declares. -/
def bodyLocals : List DStmt → List String
  | [] => []
  | .letMethodId _ :: r => "methodId" :: bodyLocals r
  | .letCompleter _ :: r => "completer" :: bodyLocals r
  | .syncRead _ _ _ _ :: r => "result" :: bodyLocals r
  | _ :: r => bodyLocals r

/-- The scope of a closure in the body of a method: the variables of the body, declared (`vs`) or not, and the
parameters. -/
def bodyScope (m : DMethod) (vs : List (String × Ty)) : Scope :=
  (bodyLocals m.body).map (fun n => (n, vs.lookup n)) ++ m.params.map (fun p => (p.2, some p.1))

/-- The arguments `_scopeId, addr, TechPawsRuntimeRpcMethodBuffer.b` of a call of the scheduler. -/
def CallTyped (E : ClassEnv) (N : List String) (addr : Nat) : Prop :=
  addr < 2 ^ 63 ∧ Free N ["_scheduler", "_scopeId", "TechPawsRuntimeRpcMethodBuffer"] ∧ E.Lib "TechPawsRuntimeRpcMethodBuffer"

/-- The statements of a method, where the variables `vs` are declared. -/
def BodyStmts (E : ClassEnv) (m : DMethod) : List (String × Ty) → List DStmt → Prop
  | _, [] => m.ret = .named "void" ∧ m.future = false
  | vs, .write _ addr _ ws :: r => CallTyped E (bodyScope m vs).names addr ∧
      (∀ w ∈ ws, WStmtTyped E (("writer", none) :: bodyScope m vs) w) ∧ BodyStmts E m vs r
  | vs, .loop :: r => "_scheduler" ∉ (bodyScope m vs).names ∧ BodyStmts E m vs r
  | vs, .syncRead ty addr _ body :: r => CallTyped E (bodyScope m vs).names addr ∧
      TypeTyped E.L E.F.names ty ∧ Free ((bodyScope m vs).names ++ classNames E.c) ty.names ∧
      ReaderClosure E (bodyScope m vs).names (some ty) body ∧ BodyStmts E m (("result", ty) :: vs) r
  | vs, .retResult :: r => m.future = false ∧ ("result", m.ret) ∈ vs ∧ r = []
  | vs, .letMethodId v :: r => v ∉ (bodyScope m vs).names ∧ .lastId v ∈ E.c.members ∧
      BodyStmts E m (("methodId", .named "int") :: vs) r
  | vs, .rotate v :: r => v ∉ (bodyScope m vs).names ∧ .lastId v ∈ E.c.members ∧ E.Lib "rotateMethodId" ∧
      "rotateMethodId" ∉ (bodyScope m vs).names ∧ BodyStmts E m vs r
  | vs, .letCompleter ty :: r => E.Lib "Completer" ∧ "Completer" ∉ (bodyScope m vs).names ∧ E.Result ty ∧
      Free (bodyScope m vs).names ty.names ∧ BodyStmts E m (("completer", .app "Completer" [ty]) :: vs) r
  | vs, .store v :: r => v ∉ (bodyScope m vs).names ∧ ("methodId", .named "int") ∈ vs ∧
      (∃ t, .completers v t ∈ E.c.members ∧ ("completer", .app "Completer" [t]) ∈ vs) ∧ BodyStmts E m vs r
  | vs, .retFuture :: r => m.future = true ∧ ("completer", .app "Completer" [m.ret]) ∈ vs ∧ r = []
  | vs, .connect v addr _ body :: r => CallTyped E (bodyScope m vs).names addr ∧ v ∉ (bodyScope m vs).names ∧
      .task v ∈ E.c.members ∧ ReaderClosure E (bodyScope m vs).names none body ∧ BodyStmts E m vs r
  | vs, .blank :: r => BodyStmts E m vs r

/-! ### The class -/

structure DMethodTyped (E : ClassEnv) (m : DMethod) : Prop where
  ret : E.Result m.ret ∧ (m.future = true → E.Lib "Future")
  params : (m.params.map (·.2)).Nodup ∧ ∀ p ∈ m.params, DartName p.2 ∧ Public p.2 ∧
    TypeTyped E.L E.F.names p.1 ∧ Free (classNames E.c) p.1.names
  locals : (bodyLocals m.body).Nodup
  body : BodyStmts E m [] m.body

def MemberTyped (E : ClassEnv) : Member → Prop
  | .lastId _ => E.Lib "int"
  | .completers _ t => E.Lib "int" ∧ E.Lib "Completer" ∧ E.Result t
  | .task _ => E.Lib "TechPawsRuntimeRpcReadTask"
  | .controller _ t => E.Lib "StreamController" ∧ E.Result t
  | .blank => True

/-- `String toString()` may be declared again; nothing else may have the name of a member of `Object`. -/
def Overrides (E : ClassEnv) (n : String) : Prop :=
  n ∉ ["hashCode", "runtimeType", "noSuchMethod"] ∧
  (n = "toString" → n ∉ E.c.getters.map (·.name) ∧
    ∀ m ∈ E.c.methods, m.name = n → m.future = false ∧ m.params = [] ∧ m.ret = .named "String" ∧ "String" ∉ E.F.names)

/-- A text without characters that are special in a string literal in single quotes. -/
def PlainText (s : String) : Prop := ∀ ch ∈ s.toList, ch ∉ ['\'', '\\', '$', '\n', '\r']

structure ClientTyped (E : ClassEnv) : Prop where
  name : DartTypeName E.c.name ∧ E.c.name ∉ E.F.names
  scope : PlainText E.c.scope
  once : (classNames E.c).Nodup
  names : ∀ n ∈ classNames E.c, DartName n ∧ n ≠ E.c.name ∧ Overrides E n
  scheduler : E.Lib "TechPawsRuntimeRpcScheduler"
  connects : ∀ n ∈ E.c.connects, ∃ m ∈ E.c.methods, m.name = n ∧ m.params = []
  members : ∀ m ∈ E.c.members, MemberTyped E m
  getters : ∀ g ∈ E.c.getters, E.Lib "Stream" ∧ E.Result g.ty ∧ .controller g.controller g.ty ∈ E.c.members
  disconnect : ∀ d ∈ E.c.disconnect, match d with
    | .disconnect v => .task v ∈ E.c.members
    | .close v => ∃ t, .controller v t ∈ E.c.members
  methods : ∀ m ∈ E.c.methods, DMethodTyped E m

/-- The models, the codecs and the client of a file are accepted. -/
def DartRpcTyped (L : DartLib) (items : List ClassItem) (codecs : List CodecClass) (c : Client) : Prop :=
  DartTyped (L.hide c.name) items codecs ∧ ClientTyped ⟨L.hide c.name, dartFile items codecs, c⟩

/-! ### Schemas for which this is the case -/

/-- The codec classes that the emitted code mentions when it reads or writes a value of the type. -/
def codecNames : TypeId → List String
  | .other id => [id ++ "IntoBuffers"]
  | .generic id gs =>
    match gs with
    | [g] => if id = "Vec" then "ListIntoBuffers" :: (dartElem g ++ "IntoBuffers") :: (dartTy g).names
        else (id ++ "IntoBuffers") :: (dartTy g).names
    | gs => (id ++ "IntoBuffers") :: tysNames (dartTys gs)
  | _ => []

/-- All members of the client class. -/
def clientNames (x : Ext) (S : List ASTNode) : List String :=
  ["_scheduler", "_scopeId", "disconnect"] ++ (methodsOf S).flatMap (clientFields x)
    ++ (methodsOf S).flatMap (clientStreams x) ++ (methodsOf S).flatMap (clientMethods x)

/-- The library names that the class mentions for a method. -/
def rpcUses (f : FnNode) : List String :=
  ["TechPawsRuntimeRpcMethodBuffer", "TechPawsRpcBufferStatus"] ++
  if f.isRead then ["TechPawsRuntimeRpcReadTask", "StreamController", "Stream"]
  else if f.isAsync then ["TechPawsRuntimeRpcReadTask", "int", "Completer", "Future", "rotateMethodId"]
  else if f.returnTypeId = none then [] else ["StateError"]

/-- The variables of the body of the method that takes the arguments. -/
def rpcLocals (f : FnNode) : List String :=
  if f.isAsync then ["methodId", "completer"] else if f.returnTypeId = none then [] else ["result"]

/-- The library names that are mentioned where arguments and variables of the method are in scope. -/
def rpcBodyUses (f : FnNode) : List String :=
  ["TechPawsRuntimeRpcMethodBuffer", "TechPawsRpcBufferStatus"] ++
  if f.isAsync then ["Completer", "rotateMethodId"] else if f.returnTypeId = none then [] else ["StateError"]

/-- The arguments, variables and closures of a method that is not a read method hide nothing that is used
there. -/
structure BodyOk (x : Ext) (f : FnNode) : Prop where
  once : (f.args.map (fun a => x.camel a.id)).Nodup
  names : ∀ a ∈ f.args, DartName (x.camel a.id) ∧ Public (x.camel a.id)
  /-- an argument is not hidden by a variable of the body, or by the method id if that is of its type -/
  args : ∀ a ∈ f.args, x.camel a.id ≠ "writer" ∧
    (x.camel a.id ∈ rpcLocals f → f.isAsync = true ∧ x.camel a.id = "methodId" ∧ dartTy a.typeId = .named "int")
  uses : Free (f.args.map (fun a => x.camel a.id)) (rpcBodyUses f)
  writes : ∀ a ∈ f.args, Free ("writer" :: (rpcLocals f ++ f.args.map (fun a => x.camel a.id))) (codecNames a.typeId)
  /-- the type of the result is mentioned in the body, its codec in the reader of synchronous methods -/
  result : ∀ t ∈ f.returnTypeId, Free (rpcLocals f ++ f.args.map (fun a => x.camel a.id)) (dartTy t).names ∧
    (f.isAsync = false → Free ("reader" :: "status" :: (rpcLocals f ++ f.args.map (fun a => x.camel a.id))) (codecNames t))

/-- The schemas whose Dart client is accepted, for a namespace and an id, if the types are. -/
structure DartRpcTypable (x : Ext) (S : List ASTNode) (ns scope : String) : Prop where
  name : DartTypeName (x.pascal ns ++ "RpcClient") ∧ x.pascal ns ++ "RpcClient" ∉ dartClasses S
  scope : PlainText scope
  once : (clientNames x S).Nodup
  names : ∀ n ∈ clientNames x S, DartName n ∧ n ≠ x.pascal ns ++ "RpcClient" ∧
    n ∉ ["hashCode", "runtimeType", "noSuchMethod"]
  toString : ∀ f ∈ methodsOf S, x.camel f.id = "toString" → f.isRead = false ∧ f.isAsync = false ∧ f.args = [] ∧
    f.returnTypeId = some (.other "String") ∧ "String" ∉ dartClasses S
  numbers : ∀ f ∈ methodsOf S, f.position < 2 ^ 63
  /-- members and classes hide nothing that is used -/
  uses : Free (clientNames x S ++ dartClasses S) ("TechPawsRuntimeRpcScheduler" :: (methodsOf S).flatMap rpcUses)
  args : ∀ f ∈ methodsOf S, f.isRead = false → ∀ a ∈ f.args,
    Free (clientNames x S) ((dartTy a.typeId).names ++ codecNames a.typeId)
  results : ∀ f ∈ methodsOf S, ∀ t ∈ f.returnTypeId, Free (clientNames x S) ((dartTy t).names ++ codecNames t)
  bodies : ∀ f ∈ methodsOf S, f.isRead = false → BodyOk x f
  /-- the readers of answers declare `status`, `methodId` and `result` -/
  readers : ∀ f ∈ methodsOf S, f.isRead = true ∨ f.isAsync = true → ∀ t ∈ f.returnTypeId,
    Free (["reader", "status", "result"] ++ if f.isRead then [] else ["methodId"]) (codecNames t)

/-- The types of arguments and results can be used in Dart. -/
def RpcTypesUsable (L : DartLib) (S : List ASTNode) : Prop :=
  ∀ f ∈ methodsOf S, (∀ a ∈ f.args, DartTypeExists L S a.typeId ∧ DartUsable L S a.typeId) ∧
    ∀ t ∈ f.returnTypeId, DartTypeExists L S t ∧ DartUsable L S t

end TPB.Spec.DartRules
