/-
Execution of the emitted Dart client class (the trees of `Sem/DartRpc.lean`).

The methods share the byte buffers of the runtime (`Rust.Bufs`) with the Rust handlers.  The scheduler
belongs to the runtime library: `write` and `syncWrite` write a buffer from its beginning before they
return, `syncRead` runs its closure on the contents of a buffer, `read` keeps its closure and later runs it
on the contents of the buffer (`runTask`), and `loopSyncGroup` runs the handlers of synchronous methods.
The value of `TechPawsRpcBufferStatus.hasData` and the function `rotateMethodId` are parameters.
-/
import Verif.Sem.DartRpc
import Verif.Sem.DartEval
import Verif.Sem.RustRpcEval
namespace TPB.Dart
open Spec
open Rust (Buf Bufs BufLib setMem)

/-- A task of the scheduler: the address, the buffer and the closure that reads it. -/
structure RTask where
  addr : Nat
  buf : Buf
  body : List RStmt
  deriving Repr, Inhabited

/-- The state of a client object, by the names of its members, with the futures of its completers:
`done` are the completed ones with their values, in order of completion; `events` are the values added to
stream controllers. -/
structure ClientState where
  last : String → Int
  pending : String → Int → Option Nat
  created : Nat
  done : List (Nat × Option Val)
  events : List (String × Option Val)
  tasks : List (String × RTask)

def Member.lastOf : Member → Option String
  | .lastId v => some v
  | _ => none

def Member.completersOf : Member → Option String
  | .completers v _ => some v
  | _ => none

def Member.taskOf : Member → Option String
  | .task v => some v
  | _ => none

def Member.controllerOf : Member → Option String
  | .controller v _ => some v
  | _ => none

def Member.name? : Member → Option String
  | .lastId v => some v
  | .completers v _ => some v
  | .task v => some v
  | .controller v _ => some v
  | .blank => none

/-- The names that the class declares. -/
def Client.names (c : Client) : List String :=
  ["_scheduler", "_scopeId", "disconnect"] ++ c.members.filterMap Member.name? ++ c.getters.map (·.name)
    ++ c.methods.map (·.name)

/-- Local variables that a statement of a method declares. -/
def DStmt.binds : DStmt → List String
  | .syncRead _ _ _ _ => ["result"]
  | .letMethodId _ => ["methodId"]
  | .letCompleter _ => ["completer"]
  | _ => []

/-- Is it the type `int`? -/
def isInt : Ty → Bool
  | .named t => t == "int"
  | _ => false

/-- The Dart compiler rejects private named parameters, two parameters with the same name, and (because
arguments are used in the closure `(writer) {..}` before later declarations of the same block) parameters
with the name of a local variable or of the closure's parameter.  Only `methodId` is declared before; there
it accepts an integer, but the variable hides it (`readVar`). -/
def DMethod.paramsOk (m : DMethod) : Bool :=
  decide ((m.params.map (·.2)).Nodup) &&
  m.params.all (fun p => p.2.toList.head? != some '_' &&
    (!("writer" :: m.body.flatMap DStmt.binds).contains p.2 || (p.2 == "methodId" && isInt p.1)))

/-- Local variables of a reading closure. -/
structure RLocals where
  status : Option Int
  methodId : Option Int
  result : Option Val

def RLocals.none : RLocals := ⟨.none, .none, .none⟩

/-- Local variables of a method. -/
structure MLocals where
  methodId : Option Int
  completer : Option Nat
  result : Option Val

/-- What a method returns. -/
inductive DRet where
  | void
  | val (v : Val)
  | future (n : Nat)
  deriving Repr, Inhabited

/-- A method without a result returns nothing. -/
def DRet.ofResult : Option Val → DRet
  | none => .void
  | some v => .val v

section
variable (rt : Runtime) (P : Prog) (k : Nat) (hasData : Int) (rotate : Int → Int) (C : Client)

/-- `reader.readM()` for an integer. -/
def readInt (m : String) (bs : Bytes) : Res (Int × Bytes) :=
  match rt.readP m bs with
  | some (.int n, r) => .ok (n, r)
  | some _ => .error .stuck
  | none => .error .throws

/-- `complete` on the completer `n`; completing twice throws. -/
def ClientState.complete (s : ClientState) (n : Nat) (v : Option Val) : Res ClientState :=
  if n ∈ s.done.map (·.1) then .error .throws else .ok { s with done := s.done ++ [(n, v)] }

/-- Remove a key of the map `v`. -/
def ClientState.remove (s : ClientState) (v : String) (i : Int) : ClientState :=
  { s with pending := fun w j => if w = v ∧ j = i then none else s.pending w j }

def ClientState.store (s : ClientState) (v : String) (i : Int) (n : Nat) : ClientState :=
  { s with pending := fun w j => if w = v ∧ j = i then some n else s.pending w j }

def ClientState.setLast (s : ClientState) (v : String) (i : Int) : ClientState :=
  { s with last := fun w => if w = v then i else s.last w }

/-- Run a reading closure: the new state and the value it returns. -/
def runReader : List RStmt → RLocals → Bytes → ClientState → Res (ClientState × Option Val)
  | [], _, _, s => .ok (s, none)
  | .blank :: ss, l, bs, s => runReader ss l bs s
  | .letStatus :: ss, l, bs, s => do
    let (n, bs) ← readInt rt "Int8" bs
    runReader ss { l with status := some n } bs s
  | .ifNoData throws :: ss, l, bs, s => do
    let n ← orElse .stuck l.status
    if n = hasData then runReader ss l bs s
    else if throws then .error .throws
    else .ok (s, none)
  | .letMethodId :: ss, l, bs, s => do
    let (n, bs) ← readInt rt "Int64" bs
    runReader ss { l with methodId := some n } bs s
  | .letResult e :: ss, l, bs, s => do
    let (v, bs) ← evalReadE rt (readers rt P k) e bs
    runReader ss { l with result := some v } bs s
  | .complete v res :: ss, l, bs, s =>
    if v ∈ C.members.filterMap Member.completersOf then do
      let i ← orElse .stuck l.methodId
      let r ← if res then (orElse .stuck l.result).map some else .ok none
      match s.pending v i with
      | none => runReader ss l bs s
      | some n => do
        let s ← s.complete n r
        runReader ss l bs s
    else .error .stuck
  | .remove v :: ss, l, bs, s =>
    if v ∈ C.members.filterMap Member.completersOf then do
      let i ← orElse .stuck l.methodId
      runReader ss l bs (s.remove v i)
    else .error .stuck
  | .add v res :: ss, l, bs, s =>
    if v ∈ C.members.filterMap Member.controllerOf then do
      let r ← if res then (orElse .stuck l.result).map some else .ok none
      runReader ss l bs { s with events := s.events ++ [(v, r)] }
    else .error .stuck
  | .ret e :: _, _, bs, s => do
    let (v, _) ← evalReadE rt (readers rt P k) e bs
    .ok (s, some v)

/-- Run the closure of a task on the contents of its buffer. -/
def runTask (t : RTask) (mem : Nat → Bufs) (s : ClientState) : Res ClientState := do
  let (s, _) ← runReader rt P k hasData C t.body .none ((mem t.addr).get t.buf) s
  .ok s

/-- What the stream that the getter `name` returns has carried so far: what has been added to its controller. -/
def Client.stream (C : Client) (s : ClientState) (name : String) : Option (List (Option Val)) :=
  (C.getters.find? (fun g => g.name = name)).map (fun g => (s.events.filter (fun e => e.1 = g.controller)).map (·.2))

/-- The value of the variable `n`, where `ps` are the parameters: the local variable `methodId` hides a
parameter of that name. -/
def readVar (ps : List (String × Val)) (l : MLocals) (n : String) : Option Val :=
  if n = "methodId" then
    match l.methodId with
    | some i => some (.int i)
    | none => ps.lookup n
  else ps.lookup n

/-- The bytes that a statement of a writing closure appends. -/
def evalWStmt (ps : List (String × Val)) (l : MLocals) : WStmt → Res Bytes
  | .status => orElse .throws (rt.writeP "Int8" (.int hasData))
  | .methodId => do
    let i ← orElse .stuck l.methodId
    orElse .throws (rt.writeP "Int64" (.int i))
  | .arg w =>
    match w.acc with
    | .var n => do
      let v ← orElse .stuck (readVar ps l n)
      evalWriteS rt (writeC rt P k) v w
    | .field _ => .error .stuck

def evalWStmts (ps : List (String × Val)) (l : MLocals) : List WStmt → Res Bytes
  | [] => .ok []
  | w :: ws => do
    let b ← evalWStmt rt P k hasData ps l w
    let bs ← evalWStmts ps l ws
    .ok (b ++ bs)

/-- A client object with the buffers, what it has written to them (in order), and the rest of the world,
which `loopSyncGroup` may change. -/
structure World (ω : Type) where
  client : ClientState
  mem : Nat → Bufs
  sent : List (Nat × Buf × Bytes)
  rest : ω

variable {ω : Type} (lib : BufLib) (loop : (Nat → Bufs) → ω → Res ((Nat → Bufs) × ω))

/-- Run the statements of a method with the arguments `ps`. -/
def execD (ps : List (String × Val)) : List DStmt → MLocals → World ω → Res (DRet × World ω)
  | [], _, w => .ok (.void, w)
  | .blank :: ss, l, w => execD ps ss l w
  | .write _ a b ws :: ss, l, w => do
    let bs ← evalWStmts rt P k hasData ps l ws
    execD ps ss l { w with
      mem := setMem w.mem a ((w.mem a).set b (lib ((w.mem a).get b) bs)), sent := w.sent ++ [(a, b, bs)] }
  | .loop :: ss, l, w => do
    let (mem, rest) ← loop w.mem w.rest
    execD ps ss l { w with mem := mem, rest := rest }
  | .syncRead _ a b body :: ss, l, w => do
    let (s, v) ← runReader rt P k hasData C body .none ((w.mem a).get b) w.client
    let v ← orElse .stuck v
    execD ps ss { l with result := some v } { w with client := s }
  | .retResult :: _, l, w => do
    let v ← orElse .stuck l.result
    .ok (.val v, w)
  | .letMethodId v :: ss, l, w =>
    if v ∈ C.members.filterMap Member.lastOf then execD ps ss { l with methodId := some (w.client.last v) } w
    else .error .stuck
  | .rotate v :: ss, l, w =>
    if v ∈ C.members.filterMap Member.lastOf then
      execD ps ss l { w with client := w.client.setLast v (rotate (w.client.last v)) }
    else .error .stuck
  | .letCompleter _ :: ss, l, w =>
    execD ps ss { l with completer := some w.client.created }
      { w with client := { w.client with created := w.client.created + 1 } }
  | .store v :: ss, l, w =>
    if v ∈ C.members.filterMap Member.completersOf then do
      let i ← orElse .stuck l.methodId
      let n ← orElse .stuck l.completer
      execD ps ss l { w with client := w.client.store v i n }
    else .error .stuck
  | .retFuture :: _, l, w => do
    let n ← orElse .stuck l.completer
    .ok (.future n, w)
  | .connect v a b body :: ss, l, w =>
    -- a `late final` variable can be assigned only once
    if v ∈ C.members.filterMap Member.taskOf then
      if v ∈ w.client.tasks.map (·.1) then .error .throws
      else execD ps ss l { w with client := { w.client with tasks := w.client.tasks ++ [(v, ⟨a, b, body⟩)] } }
    else .error .stuck

/-- Call a method by its name, with the named arguments `ps` in the order of declaration. -/
def callMethod (name : String) (ps : List Val) (w : World ω) : Res (DRet × World ω) :=
  match C.methods.find? (fun m => m.name = name) with
  | none => .error .stuck
  | some m =>
    if m.paramsOk ∧ m.params.length = ps.length then
      execD rt P k hasData rotate C lib loop ((m.params.map (·.2)).zip ps) m.body ⟨none, none, none⟩ w
    else .error .stuck

/-- Call methods without arguments, one after the other. -/
def callAll : List String → World ω → Res (World ω)
  | [], w => .ok w
  | n :: ns, w => do
    let (_, w) ← callMethod rt P k hasData rotate C lib loop n [] w
    callAll ns w

/-- The state of the members before the constructor runs. -/
def ClientState.fresh : ClientState := ⟨fun _ => 0, fun _ _ => none, 0, [], [], []⟩

/-- Create a client object.  The Dart compiler rejects a class that declares a name twice, or a member with
the name of the library function `rotateMethodId`. -/
def Client.create (mem : Nat → Bufs) (rest : ω) : Res (World ω) :=
  if C.names.Nodup ∧ "rotateMethodId" ∉ C.names then
    callAll rt P k hasData rotate C lib loop C.connects ⟨.fresh, mem, [], rest⟩
  else .error .stuck

end

/-- The rpc section of the generated file is the text of `C`. -/
def PrintsRpc (x : Ext) (S : List ASTNode) (C : Client) : Prop :=
  DartGen.rpcMethods x S = .ok (linesText 2 C.render)

end TPB.Dart
