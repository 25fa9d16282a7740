/-
Syntax of the Rust code that the generator emits for methods (the rpc section), with its rendering to
text: the registration function, the argument structs and the handlers.

`gen*` builds the tree for a schema; `Proofs/RustRpcText.lean` proves that printing the tree gives exactly
the text that `Model/RustGen.lean` produces.
-/
import Verif.Sem.RustIR
import Verif.Sem.RustEval
namespace TPB.Rust

/-- The two buffers of a method: requests go to `Server`, answers to `Client`. -/
inductive Buf where
  | server
  | client
  deriving Repr, DecidableEq, Inhabited

def Buf.render : Buf → String
  | .server => "TechPawsRuntimeRpcMethodBuffer::Server,"
  | .client => "TechPawsRuntimeRpcMethodBuffer::Client,"

/-- A status byte as the generator writes it. -/
inductive Status where
  | x00
  | xFF
  deriving Repr, DecidableEq, Inhabited

def Status.render : Status → String
  | .x00 => "0x00"
  | .xFF => "0xFF"

/-- The number that the literal denotes. -/
def Status.val : Status → Nat
  | .x00 => 0
  | .xFF => 255

/-- Statements of a closure `|bytes_writer| { .. }`. -/
inductive BufW where
  /-- `bytes_writer.write_u8(0x..);` -/
  | status (s : Status)
  /-- `bytes_writer.write_i64(args.f);` -/
  | argI64 (f : String)
  /-- `bytes_writer.write_m(result);` -/
  | resultPrim (m : String)
  /-- `result.write_to_buffers(bytes_writer);` -/
  | resultCall (ty : TypeId)
  deriving Repr, Inhabited

/-- Statements of handlers. -/
inductive Stmt where
  /-- `let args = memory.get_scope_mut(scope_id).rpc_buffer_read(rpc_method_address, b, |bytes_reader| {
  let status = bytes_reader.read_u8(); if status == s { Some(T::read_from_buffers(bytes_reader)) } else
  { None } });` -/
  | letArgs (b : Buf) (s : Status) (ty : String)
  /-- `let is_busy = memory.get_scope_mut(scope_id).rpc_buffer_read(rpc_method_address, b, |bytes_reader| {
  let status = bytes_reader.read_u8(); status == s });` -/
  | letBusy (b : Buf) (s : Status)
  /-- `memory.get_scope_mut(scope_id).rpc_buffer_write(rpc_method_address, b, |bytes_writer| { ws });` -/
  | bufWrite (b : Buf) (ws : List BufW)
  /-- `let result = f(args.clone().a, ..)`; without `let result =` if `!res`, with `.await` if `await`;
  printed on one line if there are no arguments -/
  | call (res : Bool) (f : String) (args : List String) (await : Bool)
  /-- `if let Some(args) = &args { .. }` -/
  | ifArgs (body : List Stmt)
  /-- `if !is_busy { .. }` -/
  | ifNotBusy (body : List Stmt)
  /-- `if let Some(result) = &result { .. }` -/
  | ifResult (body : List Stmt)
  /-- `let args = args.clone();` -/
  | cloneArgs
  /-- `async_context.async_spawner.spawn(async move { .. });` -/
  | spawn (body : List Stmt)
  /-- `let memory = unsafe { &mut runtime_as_mut().memory };` -/
  | letMemory
  /-- an empty line -/
  | blank
  deriving Repr, Inhabited

/-- The value that a handler returns. -/
inductive RetE where
  | argsIsSome
  | resultIsSome
  | notBusy
  deriving Repr, DecidableEq, Inhabited

/-- The three parameter lists of handlers. -/
inductive Sig where
  /-- `(scope_id, memory, rpc_method_address)` -/
  | sync
  /-- `(scope_id, runtime_as_mut, memory, async_context, rpc_method_address)` -/
  | async
  /-- `(scope_id, _, memory, _, rpc_method_address)` -/
  | syncRead
  deriving Repr, DecidableEq, Inhabited

/-- `pub fn f_rpc_handler(..) -> bool { body ret }`. -/
structure Handler where
  fn : String
  sig : Sig
  body : List Stmt
  ret : RetE
  deriving Repr, Inhabited

/-- The struct that holds the arguments of a method: its declaration and its `impl`. -/
structure ArgsItem where
  decl : Decl
  impl : Impl
  deriving Repr, Inhabited

/-- What is emitted for one method. -/
structure MethodItem where
  args : Option ArgsItem
  handler : Handler
  deriving Repr, Inhabited

inductive Group where
  | sync
  | async
  | read
  deriving Repr, DecidableEq, Inhabited

def Group.render : Group → String
  | .sync => "addr.sync_group_address"
  | .async => "addr.async_group_address"
  | .read => "addr.read_group_address"

/-- `runtime.register_K_rpc_method(group, scope_id, RpcMethodAddress(addr), f_rpc_handler);` with `K` being
`sync` or `async`. -/
structure Reg where
  sync : Bool
  group : Group
  addr : Nat
  fn : String
  deriving Repr, DecidableEq, Inhabited

/-- The rpc section of a file. -/
structure RpcSection where
  scope : String
  regs : List Reg
  methods : List MethodItem
  deriving Repr, Inhabited

/-! ### Rendering -/

def BufW.render : BufW → String
  | .status s => "bytes_writer.write_u8(" ++ s.render ++ ");"
  | .argI64 f => "bytes_writer.write_i64(args." ++ f ++ ");"
  | .resultPrim m => "bytes_writer.write_" ++ m ++ "(result);"
  | .resultCall _ => "result.write_to_buffers(bytes_writer);"

/-- `memory.get_scope_mut(scope_id).rpc_buffer_write(..);` -/
def renderBufWrite (t : Nat) (b : Buf) (ws : List BufW) : List Line :=
  [(t, "memory.get_scope_mut(scope_id).rpc_buffer_write("), (t + 1, "rpc_method_address,"),
   (t + 1, b.render), (t + 1, "|bytes_writer| {")] ++ ws.map (fun w => (t + 2, w.render))
    ++ [(t + 1, "},"), (t, ");")]

/-- A call of the user's function. -/
def renderCall (t : Nat) (res : Bool) (f : String) (args : List String) (await : Bool) : List Line :=
  match args with
  | [] => [(t, (if res then "let result = " else "") ++ (f ++ "()" ++ (if await then ".await" else "") ++ ";"))]
  | args => [(t, (if res then "let result = " else "") ++ (f ++ "("))]
      ++ args.map (fun a => (t + 1, "args.clone()." ++ a ++ ","))
      ++ [(t, ")" ++ (if await then ".await" else "") ++ ";")]

mutual
/-- The lines of a statement, indented by `t`. -/
def Stmt.render (t : Nat) : Stmt → List Line
  | .letArgs b s ty =>
    [(t, "let args = memory.get_scope_mut(scope_id).rpc_buffer_read("), (t + 1, "rpc_method_address,"),
     (t + 1, b.render), (t + 1, "|bytes_reader| {"), (t + 2, "let status = bytes_reader.read_u8();"), (0, ""),
     (t + 2, "if status == " ++ s.render ++ " {"),
     (t + 3, "Some(" ++ ty ++ "::read_from_buffers(bytes_reader))"), (t + 2, "} else {"), (t + 3, "None"),
     (t + 2, "}"), (t + 1, "},"), (t, ");")]
  | .letBusy b s =>
    [(t, "let is_busy = memory.get_scope_mut(scope_id).rpc_buffer_read("), (t + 1, "rpc_method_address,"),
     (t + 1, b.render), (t + 1, "|bytes_reader| {"), (t + 2, "let status = bytes_reader.read_u8();"),
     (t + 2, "status == " ++ s.render), (t + 1, "},"), (t, ");")]
  | .bufWrite b ws => renderBufWrite t b ws
  | .call res f args await => renderCall t res f args await
  | .ifArgs body => (t, "if let Some(args) = &args {") :: renderStmts (t + 1) body ++ [(t, "}")]
  | .ifNotBusy body => (t, "if !is_busy {") :: renderStmts (t + 1) body ++ [(t, "}")]
  | .ifResult body => (t, "if let Some(result) = &result {") :: renderStmts (t + 1) body ++ [(t, "}")]
  | .cloneArgs => [(t, "let args = args.clone();")]
  | .spawn body => (t, "async_context.async_spawner.spawn(async move {") :: renderStmts (t + 1) body ++ [(t, "});")]
  | .letMemory => [(t, "let memory = unsafe { &mut runtime_as_mut().memory };")]
  | .blank => [(0, "")]

def renderStmts (t : Nat) : List Stmt → List Line
  | [] => []
  | s :: ss => s.render t ++ renderStmts t ss
end

def RetE.render : RetE → String
  | .argsIsSome => "args.is_some()"
  | .resultIsSome => "result.is_some()"
  | .notBusy => "!is_busy"

def Sig.render : Sig → List Line
  | .sync => [(1, "scope_id: TechPawsScopeId,"), (1, "memory: &mut TechPawsRuntimeMemory,"),
      (1, "rpc_method_address: RpcMethodAddress,")]
  | .async => [(1, "scope_id: TechPawsScopeId,"),
      (1, "runtime_as_mut: unsafe fn() -> &'static mut TechPawsRuntime,"),
      (1, "memory: &mut TechPawsRuntimeMemory,"), (1, "async_context: &mut TechPawsRuntimeAsyncContext,"),
      (1, "rpc_method_address: RpcMethodAddress,")]
  | .syncRead => [(1, "scope_id: TechPawsScopeId,"), (1, "_: unsafe fn() -> &'static mut TechPawsRuntime,"),
      (1, "memory: &mut TechPawsRuntimeMemory,"), (1, "_: &mut TechPawsRuntimeAsyncContext,"),
      (1, "rpc_method_address: RpcMethodAddress,")]

def Handler.render (h : Handler) : List Line :=
  [(0, "pub fn " ++ h.fn ++ "_rpc_handler(")] ++ h.sig.render ++ [(0, ") -> bool {")] ++ renderStmts 1 h.body
    ++ [(0, ""), (1, h.ret.render), (0, "}")]

def ArgsItem.render (a : ArgsItem) : List Line := a.decl.render ++ [(0, "")] ++ a.impl.render ++ [(0, "")]

def MethodItem.render (m : MethodItem) : List Line :=
  (match m.args with | some a => a.render | none => []) ++ m.handler.render

def Reg.render (r : Reg) : List Line :=
  [(1, "runtime." ++ (if r.sync then "register_sync_rpc_method" else "register_async_rpc_method") ++ "("),
   (2, r.group.render ++ ","), (2, "scope_id,"), (2, "RpcMethodAddress(" ++ toString r.addr ++ "),"),
   (2, r.fn ++ "_rpc_handler,"), (1, ");")]

def RpcSection.renderRegister (s : RpcSection) : List Line :=
  [(0, "pub fn register_rpc(runtime: &mut TechPawsRuntime, addr: &TechPawsRpcAddress) {"),
   (1, "let scope_id = TechPawsScopeId(uuid!(\"" ++ s.scope ++ "\"));"),
   (1, "runtime.memory.add_scope(scope_id);")] ++ s.regs.flatMap Reg.render ++ [(0, "}")]

def RpcSection.render (s : RpcSection) : List Line :=
  joinBlocks (s.renderRegister :: s.methods.map MethodItem.render)

/-! ### From methods to trees -/

/-- The struct that holds the arguments of a method, as a declaration of the schema language.  (The
generator gives the method id the type `Number { id: "i64" }`; as a type of the language it is the
integer type `i64`.  The emitted text is the same.) -/
def argsNode (f : FnNode) : StructNode :=
  if f.isAsync then
    ⟨RustGen.argsStructId f, ⟨0, "__method_id__", .integer "i64" 8 true⟩ :: RustGen.argFields 1 f.args, false, true⟩
  else ⟨RustGen.argsStructId f, RustGen.argFields 0 f.args, false, true⟩

def genArgs (f : FnNode) : ArgsItem := ⟨genStructDecl (argsNode f), genStructImpl (argsNode f)⟩

/-- The statement that writes the variable `result` of type `t`. -/
def genResult (t : TypeId) : BufW :=
  match t with
  | .integer id _ _ => .resultPrim id
  | .number id _ => .resultPrim id
  | .bool id => .resultPrim id
  | .char id => .resultPrim id
  | .other id => .resultCall (.other id)
  | .generic id gs => .resultCall (.generic id gs)

/-- The statements that write the result, if the method has one. -/
def genResults (f : FnNode) : List BufW :=
  match f.returnTypeId with
  | some t => [genResult t]
  | none => []

def genCall (f : FnNode) : Stmt := .call f.returnTypeId.isSome f.id (f.args.map (·.id)) f.isAsync

def genSyncBody (f : FnNode) : List Stmt :=
  [.letArgs .server .xFF (RustGen.argsStructId f), .blank,
   .ifArgs [.bufWrite .server [.status .x00], .blank, genCall f, .blank,
     .bufWrite .client (.status .xFF :: genResults f)]]

def genAsyncBody (f : FnNode) : List Stmt :=
  [.letArgs .server .xFF (RustGen.argsStructId f), .blank,
   .ifArgs [.bufWrite .server [.status .x00], .blank, .cloneArgs, .blank,
     .spawn [.letMemory, genCall f, .blank,
       .bufWrite .client (.status .xFF :: .argI64 "__method_id__" :: genResults f)]]]

def genSyncReadBody (f : FnNode) : List Stmt :=
  [.call true f.id [] false, .blank, .ifResult [.bufWrite .client (.status .xFF :: genResults f)]]

def genAsyncReadBody (f : FnNode) : List Stmt :=
  [.letBusy .server .xFF, .blank,
   .ifNotBusy [.bufWrite .server [.status .xFF], .blank,
     .spawn [.call true f.id [] true, .blank,
       .ifResult [.letMemory, .bufWrite .client (.status .xFF :: genResults f), .bufWrite .server [.status .x00]]]]]

def genHandler (f : FnNode) : Handler :=
  if f.isRead then
    if f.isAsync then ⟨f.id, .async, genAsyncReadBody f, .notBusy⟩
    else ⟨f.id, .syncRead, genSyncReadBody f, .resultIsSome⟩
  else if f.isAsync then ⟨f.id, .async, genAsyncBody f, .argsIsSome⟩
  else ⟨f.id, .sync, genSyncBody f, .argsIsSome⟩

def genMethod (f : FnNode) : MethodItem :=
  ⟨if f.isRead then none else some (genArgs f), genHandler f⟩

def genReg (f : FnNode) : Reg :=
  if f.isRead then ⟨false, .read, f.position, f.id⟩
  else if f.isAsync then ⟨false, .async, f.position, f.id⟩
  else ⟨true, .sync, f.position, f.id⟩

def genRpc (scope : String) (S : List ASTNode) : RpcSection :=
  ⟨scope, (findFnNodes S).map genReg, (findFnNodes S).map genMethod⟩

/-- The identifier of the schema: the string given by the directive `#[id = ".."]`. -/
def scopeOf (S : List ASTNode) : Option String :=
  match findDirectiveValue S "id" with
  | some ⟨.str s, _⟩ => some s
  | _ => none

end TPB.Rust
