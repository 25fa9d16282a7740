/-
Execution of the emitted Rust handlers (the trees of `Sem/RustRpc.lean`).

The memory of the runtime gives every method of a schema two byte buffers.  The user's functions, the
codecs and the runtime library are parameters.  Code runs one statement at a time, so that handlers,
spawned futures and the client can be interleaved (`Cfg` and `Act` below).  A failing run is explicit:
`panic` is a run-time panic, `stuck` is code that rustc would reject.
-/
import Verif.Sem.RustRpc
namespace TPB.Rust
open Spec

/-- The two buffers of a method. -/
structure Bufs where
  server : Bytes
  client : Bytes
  deriving Repr, DecidableEq, Inhabited

def Bufs.get (m : Bufs) : Buf → Bytes
  | .server => m.server
  | .client => m.client

def Bufs.set (m : Bufs) : Buf → Bytes → Bufs
  | .server, bs => { m with server := bs }
  | .client, bs => { m with client := bs }

/-- The library's codecs and the emitted codecs, as handlers use them. -/
structure Codec where
  /-- `bytes_writer.write_T(v)` -/
  prim : String → Val → Option Bytes
  /-- `bytes_reader.read_T()` -/
  readP : String → Bytes → Option (Val × Bytes)
  /-- `T::read_from_buffers(bytes_reader)` -/
  read : String → Bytes → Option Val
  /-- `v.write_to_buffers(bytes_writer)` for a value of type `T` -/
  write : TypeId → Val → Option Bytes

/-- The codecs of the program `P`, run with stack `k`. -/
def codecAt (rt : Runtime) (P : Prog) (k : Nat) : Codec where
  prim := rt.wire.prim
  readP := rt.readP
  read ty bs := match readTy rt P k (.named ty) bs with | .ok (v, _) => some v | .error _ => none
  write t v := match writeTy rt P k (genTy t) v with | .ok bs => some bs | .error _ => none

/-- What a call of a user function yields: nothing, a value, or (for read methods) perhaps a value. -/
inductive Ret where
  | unit
  | val (v : Val)
  | opt (o : Option Val)
  deriving Repr, Inhabited

/-- The user's synchronous functions; `σ` is the user's own state. -/
abbrev User (σ : Type) := String → List Val → σ → Ret × σ

/-- `lib old bs` is what a buffer with contents `old` holds after `bs` has been written from its
beginning (`rpc_buffer_write`). -/
abbrev BufLib := Bytes → Bytes → Bytes

/-- What is assumed of it: the buffer then begins with the bytes written. -/
def BufLib.Lawful (lib : BufLib) : Prop := ∀ old bs, ∃ r, lib old bs = bs ++ r

/-- The local variables of a handler or of a spawned future. -/
structure Frame where
  /-- the variables in scope -/
  names : List String
  /-- `args` as bound by `let args = ..rpc_buffer_read(..)` -/
  argsOpt : Option (Option Val)
  /-- `args` as bound by `if let Some(args) = &args` or by `let args = args.clone()` -/
  args : Option Val
  /-- is the inner `args` owned (cloned), not a reference? -/
  owned : Bool
  busy : Option Bool
  /-- `result` as bound by `let result = f(..)` -/
  result : Option Ret
  /-- `result` as bound by `if let Some(result) = &result` -/
  resultRef : Option Val
  deriving Repr, Inhabited

/-- A running handler or future.  `wait` is the user function whose future is being awaited: whether its
result is bound, its name and its arguments.  `outer` holds the variables outside the innermost block. -/
structure Thread where
  frame : Frame
  outer : Option Frame
  wait : Option (Bool × String × List Val)
  code : List Stmt
  deriving Repr, Inhabited

/-- The effect of one statement. -/
structure Out (σ : Type) where
  bufs : Bufs
  user : σ
  thread : Thread
  /-- calls of user functions -/
  calls : List (String × List Val)
  spawned : Option Thread

/-- The parameters that are visible in the body. -/
def Sig.names : Sig → List String
  | .sync => ["scope_id", "memory", "rpc_method_address"]
  | .async => ["scope_id", "runtime_as_mut", "memory", "async_context", "rpc_method_address"]
  | .syncRead => ["scope_id", "memory", "rpc_method_address"]

/-- The thread that runs a handler. -/
def Handler.start (h : Handler) : Thread :=
  ⟨⟨h.sig.names, none, none, false, none, none, none⟩, none, none, h.body⟩

section
variable {σ : Type} (C : Codec) (lib : BufLib) (U : User σ)

/-- `let status = bytes_reader.read_u8();` -/
def readStatus (bs : Bytes) : Res (Int × Bytes) :=
  match C.readP "u8" bs with
  | some (.int n, r) => .ok (n, r)
  | _ => .error .panic

/-- The closure that reads a request. -/
def evalLetArgs (s : Status) (ty : String) (bs : Bytes) : Res (Option Val) := do
  let (n, r) ← readStatus C bs
  if n = s.val then
    let v ← orElse .panic (C.read ty r)
    .ok (some v)
  else .ok none

/-- `x.f` -/
def field (v : Val) (f : String) : Res Val :=
  match v with
  | .struct _ fs => orElse .stuck (fs.lookup f)
  | _ => .error .stuck

/-- The bytes that a statement of a writing closure appends. -/
def evalBufW (fr : Frame) : BufW → Res Bytes
  | .status s => orElse .stuck (C.prim "u8" (.int s.val))
  | .argI64 f => do
    let a ← orElse .stuck fr.args
    let v ← field a f
    orElse .stuck (C.prim "i64" v)
  | .resultPrim m =>
    -- `write_m` takes its argument by value: a reference is a type error
    match fr.resultRef, fr.result with
    | none, some (.val v) => orElse .stuck (C.prim m v)
    | _, _ => .error .stuck
  | .resultCall ty =>
    match fr.resultRef, fr.result with
    | some v, _ => orElse .stuck (C.write ty v)
    | none, some (.val v) => orElse .stuck (C.write ty v)
    | none, _ => .error .stuck

/-- The bytes that a writing closure writes. -/
def evalBufWs (fr : Frame) : List BufW → Res Bytes
  | [] => .ok []
  | w :: ws => do
    let b ← evalBufW C fr w
    let bs ← evalBufWs fr ws
    .ok (b ++ bs)

/-- The arguments `args.clone().a` of a call. -/
def callArgs (fr : Frame) : List String → Res (List Val)
  | [] => .ok []
  | a :: as => do
    let v ← orElse .stuck fr.args
    let x ← field v a
    let xs ← callArgs fr as
    .ok (x :: xs)

/-- The variables of a block that is entered from a thread; the enclosing ones are kept. -/
def Thread.enter (t : Thread) (fr : Frame) (body : List Stmt) : Thread :=
  ⟨fr, some (t.outer.getD t.frame), none, body⟩

/-- Execute `let result = f(..)` or `f(..)`. -/
def bindResult (res : Bool) (r : Ret) (fr : Frame) : Frame :=
  if res then { fr with result := some r, resultRef := none, names := "result" :: fr.names } else fr

/-- The variables that a spawned future takes with it: the outer `args` is not used by it, a borrowed
`args` and the borrowed `memory` cannot be. -/
def Frame.captured (fr : Frame) : Frame :=
  { fr with argsOpt := none, args := if fr.owned then fr.args else none, names := fr.names.erase "memory" }

/-- Execute one statement of a thread.  A block statement must be the last one of its block, which is so
in emitted code.  Awaiting starts the user's future; it is resumed by `Act.resume`. -/
def step (m : Bufs) (u : σ) (t : Thread) : Res (Out σ) :=
  match t.code with
  | [] => .error .stuck
  | s :: rest =>
    match s with
    | .blank => .ok ⟨m, u, { t with code := rest }, [], none⟩
    | .letArgs b st ty => do
      let o ← evalLetArgs C st ty (m.get b)
      .ok ⟨m, u, { t with frame := { t.frame with argsOpt := some o, names := "args" :: t.frame.names }, code := rest }, [], none⟩
    | .letBusy b st => do
      let (n, _) ← readStatus C (m.get b)
      .ok ⟨m, u, { t with frame := { t.frame with busy := some (n = st.val), names := "is_busy" :: t.frame.names }, code := rest },
        [], none⟩
    | .bufWrite b ws =>
      if "memory" ∈ t.frame.names then do
        let bs ← evalBufWs C t.frame ws
        .ok ⟨m.set b (lib (m.get b) bs), u, { t with code := rest }, [], none⟩
      else .error .stuck
    | .call res f as await =>
      -- a local variable with the name of the function would be called instead
      if f ∈ t.frame.names then .error .stuck
      else do
        let xs ← callArgs t.frame as
        if await then .ok ⟨m, u, { t with wait := some (res, f, xs), code := rest }, [(f, xs)], none⟩
        else .ok ⟨m, (U f xs u).2, { t with frame := bindResult res (U f xs u).1 t.frame, code := rest }, [(f, xs)], none⟩
    | .ifArgs body =>
      match rest, t.frame.argsOpt with
      | [], some (some v) => .ok ⟨m, u, t.enter { t.frame with args := some v, owned := false } body, [], none⟩
      | [], some none => .ok ⟨m, u, { t with code := [] }, [], none⟩
      | _, _ => .error .stuck
    | .ifNotBusy body =>
      match rest, t.frame.busy with
      | [], some false => .ok ⟨m, u, t.enter t.frame body, [], none⟩
      | [], some true => .ok ⟨m, u, { t with code := [] }, [], none⟩
      | _, _ => .error .stuck
    | .ifResult body =>
      match rest, t.frame.result with
      | [], some (.opt (some v)) => .ok ⟨m, u, t.enter { t.frame with resultRef := some v } body, [], none⟩
      | [], some (.opt none) => .ok ⟨m, u, { t with code := [] }, [], none⟩
      | _, _ => .error .stuck
    | .cloneArgs =>
      match t.frame.args with
      | some _ => .ok ⟨m, u, { t with frame := { t.frame with owned := true }, code := rest }, [], none⟩
      | none => .error .stuck
    | .spawn body =>
      if "async_context" ∈ t.frame.names then
        .ok ⟨m, u, { t with code := rest }, [], some ⟨t.frame.captured, none, none, body⟩⟩
      else .error .stuck
    | .letMemory =>
      if "runtime_as_mut" ∈ t.frame.names then
        .ok ⟨m, u, { t with frame := { t.frame with names := "memory" :: t.frame.names }, code := rest }, [], none⟩
      else .error .stuck

/-- The value of the last expression of a handler. -/
def RetE.eval (t : Thread) : RetE → Res Bool
  | .argsIsSome =>
    match (t.outer.getD t.frame).argsOpt with
    | some o => .ok o.isSome
    | none => .error .stuck
  | .resultIsSome =>
    match (t.outer.getD t.frame).result with
    | some (.opt o) => .ok o.isSome
    | _ => .error .stuck
  | .notBusy =>
    match (t.outer.getD t.frame).busy with
    | some b => .ok (!b)
    | none => .error .stuck

/-- The effect of a whole handler run. -/
structure Ran (σ : Type) where
  bufs : Bufs
  user : σ
  calls : List (String × List Val)
  spawned : List Thread
  ret : Bool

mutual
/-- Number of statements. -/
def Stmt.size : Stmt → Nat
  | .ifArgs b => stmtsSize b + 1
  | .ifNotBusy b => stmtsSize b + 1
  | .ifResult b => stmtsSize b + 1
  | .spawn b => stmtsSize b + 1
  | .letArgs _ _ _ => 1
  | .letBusy _ _ => 1
  | .bufWrite _ _ => 1
  | .call _ _ _ _ => 1
  | .cloneArgs => 1
  | .letMemory => 1
  | .blank => 1

def stmtsSize : List Stmt → Nat
  | [] => 0
  | s :: ss => s.size + stmtsSize ss
end

/-- Run a thread for at most `n` statements until its code ends. -/
def runThread (ret : RetE) : Nat → Bufs → σ → Thread → Res (Ran σ)
  | 0, m, u, t =>
    match t.code with
    | [] => do let b ← ret.eval t; .ok ⟨m, u, [], [], b⟩
    | _ :: _ => .error .fuel
  | n + 1, m, u, t =>
    match t.code with
    | [] => do let b ← ret.eval t; .ok ⟨m, u, [], [], b⟩
    | _ :: _ => do
      let o ← step C lib U m u t
      match o.thread.wait with
      | some _ => .error .stuck
      | none => do
        let r ← runThread ret n o.bufs o.user o.thread
        .ok { r with calls := o.calls ++ r.calls, spawned := o.spawned.toList ++ r.spawned }

/-- Run a handler to its end with nothing else happening. -/
def runHandler (h : Handler) (m : Bufs) (u : σ) : Res (Ran σ) :=
  runThread C lib U h.ret (stmtsSize h.body) m u h.start

/-- Run a handler `n` times. -/
def runTimes (h : Handler) : Nat → Bufs → σ → Res (List (Ran σ))
  | 0, _, _ => .ok []
  | n + 1, m, u => do
    let r ← runHandler C lib U h m u
    let rs ← runTimes h n r.bufs r.user
    .ok (r :: rs)

/-- Run a spawned future to its end with nothing else happening, where the awaited user function yields
`r`: the buffers afterwards and the calls of user functions. -/
def runFuture (r : Ret) : Nat → Bufs → σ → Thread → Res (Bufs × List (String × List Val))
  | 0, _, _, _ => .error .fuel
  | n + 1, m, u, t =>
    match t.wait, t.code with
    | some (res, _, _), _ => runFuture r n m u { t with frame := bindResult res r t.frame, wait := none }
    | none, [] => .ok (m, [])
    | none, _ :: _ => do
      let o ← step C lib U m u t
      match o.spawned with
      | some _ => .error .stuck
      | none => do
        let (m, cs) ← runFuture r n o.bufs o.user o.thread
        .ok (m, o.calls ++ cs)

/-! ### Histories -/

/-- A thread with the address of its method. -/
structure Task where
  addr : Nat
  thread : Thread
  deriving Repr, Inhabited

/-- A running handler. -/
structure Run where
  addr : Nat
  ret : RetE
  thread : Thread
  deriving Repr, Inhabited

/-- What can be observed of the system. -/
inductive Ev where
  /-- a user function is called (for an asynchronous one: its future is first polled) -/
  | called (a : Nat) (f : String) (args : List Val)
  /-- the future of an asynchronous user function yields a result -/
  | finished (a : Nat) (f : String) (args : List Val) (r : Ret)
  /-- the client writes a request -/
  | requested (a : Nat) (bs : Bytes)
  /-- a handler returns -/
  | handled (a : Nat) (work : Bool)
  deriving Repr, Inhabited

/-- The state of the server: the buffers of all methods, the user's state, the running handler, the
spawned futures, and what has happened, in order. -/
structure Cfg (σ : Type) where
  mem : Nat → Bufs
  user : σ
  run : Option Run
  tasks : List Task
  log : List Ev

def setMem (mem : Nat → Bufs) (a : Nat) (m : Bufs) : Nat → Bufs := fun b => if b = a then m else mem b

/-- What can happen next: the runtime calls a handler, the running handler executes a statement or
returns, a spawned future executes a statement, the future of a user function yields a result, the
client writes the server buffer of a method, the client or the library writes its client buffer. -/
inductive Act where
  | poll (a : Nat)
  | stepH
  | endH
  | stepT (i : Nat)
  | resume (i : Nat) (r : Ret)
  | request (a : Nat) (bs : Bytes)
  | clear (a : Nat) (bs : Bytes)

/-- The effect of an action; `none` if it is not possible.  `regs` are the registered handlers. -/
def act (regs : List (Nat × Handler)) (c : Cfg σ) : Act → Option (Cfg σ)
  | .poll a =>
    match c.run, regs.lookup a with
    | none, some h => some { c with run := some ⟨a, h.ret, h.start⟩ }
    | _, _ => none
  | .stepH =>
    match c.run with
    | some r =>
      match step C lib U (c.mem r.addr) c.user r.thread with
      | .ok o => some { c with
          mem := setMem c.mem r.addr o.bufs, user := o.user, run := some { r with thread := o.thread },
          tasks := c.tasks ++ (o.spawned.toList.map (Task.mk r.addr)),
          log := c.log ++ o.calls.map (fun p => .called r.addr p.1 p.2) }
      | .error _ => none
    | none => none
  | .endH =>
    match c.run with
    | some r =>
      match r.thread.code, r.ret.eval r.thread with
      | [], .ok b => some { c with run := none, log := c.log ++ [.handled r.addr b] }
      | _, _ => none
    | none => none
  | .stepT i =>
    match c.tasks[i]? with
    | some t =>
      match t.thread.wait with
      | some _ => none
      | none =>
        match step C lib U (c.mem t.addr) c.user t.thread with
        | .ok o => some { c with
            mem := setMem c.mem t.addr o.bufs, user := o.user,
            tasks := (c.tasks.set i { t with thread := o.thread }) ++ (o.spawned.toList.map (Task.mk t.addr)),
            log := c.log ++ o.calls.map (fun p => .called t.addr p.1 p.2) }
        | .error _ => none
    | none => none
  | .resume i r =>
    match c.tasks[i]? with
    | some t =>
      match t.thread.wait with
      | some (res, f, xs) => some { c with
          tasks := c.tasks.set i { t with thread := { t.thread with frame := bindResult res r t.thread.frame, wait := none } },
          log := c.log ++ [.finished t.addr f xs r] }
      | none => none
    | none => none
  | .request a bs => some { c with
      mem := setMem c.mem a { c.mem a with server := lib (c.mem a).server bs }, log := c.log ++ [.requested a bs] }
  | .clear a bs => some { c with mem := setMem c.mem a { c.mem a with client := lib (c.mem a).client bs } }

/-- Perform actions one after the other. -/
def acts (regs : List (Nat × Handler)) (c : Cfg σ) : List Act → Option (Cfg σ)
  | [] => some c
  | x :: xs =>
    match act C lib U regs c x with
    | some c => acts regs c xs
    | none => none

end

/-- A state in which nothing has happened yet. -/
def Cfg.initial {σ : Type} (mem : Nat → Bufs) (u : σ) : Cfg σ := ⟨mem, u, none, [], []⟩

/-- Is `e` a call of a function for address `a`? -/
def Ev.calledAt (a : Nat) : Ev → Bool
  | .called b _ _ => b == a
  | _ => false

/-- Is `e` the end of a function's future for address `a`? -/
def Ev.finishedAt (a : Nat) : Ev → Bool
  | .finished b _ _ _ => b == a
  | _ => false

/-- The result of the user's function is a result of the method. -/
def RetIs : Ret → Option Val → Prop
  | .unit, none => True
  | .val v, some w => v = w
  | _, _ => False

/-- The program of a file with methods: the declared types and the argument structs. -/
def Prog.withArgs (P : Prog) (R : RpcSection) : Prog where
  decls := P.decls ++ (R.methods.filterMap (·.args)).map (·.decl)
  impls := P.impls ++ (R.methods.filterMap (·.args)).map (·.impl)

/-- The handlers that a section registers, by address. -/
def RpcSection.handlers (R : RpcSection) : List (Nat × Handler) :=
  R.regs.filterMap (fun r => (R.methods.find? (fun m => m.handler.fn = r.fn)).map (fun m => (r.addr, m.handler)))

/-- The rpc section of the generated file is the text of `R`. -/
def PrintsRpc (S : List ASTNode) (R : RpcSection) : Prop := RustGen.rpc S = .ok (linesText 4 R.render)

end TPB.Rust
