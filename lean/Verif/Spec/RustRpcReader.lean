/-
A reader of Rust source text: from the characters of the generated section for methods (the registration
function, the argument structs and the handlers) to the trees of `Sem/RustRpc.lean`.

It is written from the grammar of the language fragment, without reference to the generator or to the
functions that print trees.  Line ends are dropped, so the trees that are read have no `blank` statements.
The types of the results of the user's functions are not in this text; they are given by `ret`.
-/
import Verif.Sem.RustRpcEval
import Verif.Spec.Combinators
import Verif.Spec.RustReader
import Verif.Spec.Rpc
namespace TPB.Spec.RustRpcReader
open Rust Pieces Combinators

/-- An identifier that is not a keyword. -/
def ident : P String := RustReader.name

/-- `B` or the other of two words. -/
def either {α : Type} (a : String) (x : α) (b : String) (y : α) : P α := do
  if ← next (.word a) then
    the a
    pure x
  else
    the b
    pure y

/-- `TechPawsRuntimeRpcMethodBuffer::Server,` or `..::Client,` -/
def buf : P Buf := do
  text "TechPawsRuntimeRpcMethodBuffer::"
  let b ← either "Server" Buf.server "Client" Buf.client
  text ","
  pure b

/-- A status byte. -/
def status : P Status := either "0x00" Status.x00 "0xFF" Status.xFF

/-- A statement of a closure `|bytes_writer| { .. }`. -/
def bufW (ret : TypeId) : P BufW := do
  if ← next (.word "result") then
    text "result.write_to_buffers(bytes_writer);"
    pure (.resultCall ret)
  else
    text "bytes_writer."
    let w ← word
    let m ← some! (dropStart "write_" w)
    text "("
    if ← next (.word "result") then
      text "result);"
      pure (.resultPrim m)
    else if ← next (.word "args") then
      fits (m == "i64")
      text "args."
      let f ← ident
      text ");"
      pure (.argI64 f)
    else
      fits (m == "u8")
      let s ← status
      text ");"
      pure (.status s)

/-- `memory.get_scope_mut(scope_id).rpc_buffer_read(rpc_method_address, b, |bytes_reader| { let status =
bytes_reader.read_u8();` -/
def openRead : P Buf := do
  text "memory.get_scope_mut(scope_id).rpc_buffer_read(rpc_method_address,"
  let b ← buf
  text "|bytes_reader| { let status = bytes_reader.read_u8();"
  pure b

/-- `args.clone().a,` -/
def callArg : P String := do
  text "args.clone()."
  let a ← ident
  text ","
  pure a

/-- `f(..);` or `f(..).await;` -/
def callTail (res : Bool) : P Rust.Stmt := do
  let f ← ident
  text "("
  let as ← until_ (.sym ')') callArg
  if ← next (.sym '.') then
    text ".await;"
    pure (.call res f as true)
  else
    text ";"
    pure (.call res f as false)

/-- What follows `let`. -/
def letStmt : P Rust.Stmt := do
  text "let"
  if ← next (.word "args") then
    text "args ="
    if ← next (.word "args") then
      text "args.clone();"
      pure .cloneArgs
    else
      let b ← openRead
      text "if status =="
      let s ← status
      text "{ Some("
      let ty ← ident
      text "::read_from_buffers(bytes_reader)) } else { None } }, );"
      pure (.letArgs b s ty)
  else if ← next (.word "is_busy") then
    text "is_busy ="
    let b ← openRead
    text "status =="
    let s ← status
    text "}, );"
    pure (.letBusy b s)
  else if ← next (.word "memory") then
    text "memory = unsafe { &mut runtime_as_mut().memory };"
    pure .letMemory
  else
    text "result ="
    callTail true

/-- A statement of a handler. -/
def stmt (ret : TypeId) : Nat → P Rust.Stmt
  | 0 => failure
  | fuel + 1 => do
    if ← next (.word "let") then letStmt
    else if ← next (.word "if") then
      text "if"
      if ← next (.sym '!') then
        text "!is_busy {"
        let body ← until_ (.sym '}') (stmt ret fuel)
        pure (.ifNotBusy body)
      else
        text "let Some("
        if ← next (.word "args") then
          text "args) = &args {"
          let body ← until_ (.sym '}') (stmt ret fuel)
          pure (.ifArgs body)
        else
          text "result) = &result {"
          let body ← until_ (.sym '}') (stmt ret fuel)
          pure (.ifResult body)
    else if ← next (.word "memory") then
      text "memory.get_scope_mut(scope_id).rpc_buffer_write(rpc_method_address,"
      let b ← buf
      text "|bytes_writer| {"
      let ws ← until_ (.sym '}') (bufW ret)
      text ", );"
      pure (.bufWrite b ws)
    else if ← next (.word "async_context") then
      text "async_context.async_spawner.spawn(async move {"
      let body ← until_ (.sym '}') (stmt ret fuel)
      text ");"
      pure (.spawn body)
    else callTail false

def anyStmt (ret : TypeId) : P Rust.Stmt := fun ts => stmt ret ts.length ts

/-- The last expression of a handler. -/
def retE : P RetE := do
  if ← next (.sym '!') then
    text "!is_busy"
    pure .notBusy
  else
    let r ← either "args" RetE.argsIsSome "result" RetE.resultIsSome
    text ".is_some()"
    pure r

/-- The parameters of a handler. -/
def sig : P Sig := do
  text "scope_id: TechPawsScopeId,"
  if ← next (.word "memory") then
    text "memory: &mut TechPawsRuntimeMemory, rpc_method_address: RpcMethodAddress,"
    pure .sync
  else if ← next (.word "runtime_as_mut") then
    text "runtime_as_mut: unsafe fn() -> &'static mut TechPawsRuntime, memory: &mut TechPawsRuntimeMemory,"
    text "async_context: &mut TechPawsRuntimeAsyncContext, rpc_method_address: RpcMethodAddress,"
    pure .async
  else
    text "_: unsafe fn() -> &'static mut TechPawsRuntime, memory: &mut TechPawsRuntimeMemory,"
    text "_: &mut TechPawsRuntimeAsyncContext, rpc_method_address: RpcMethodAddress,"
    pure .syncRead

/-- `f_rpc_handler` -/
def handlerName : P String := do
  let w ← word
  let f ← some! (dropEnd "_rpc_handler" w)
  fits (isIdent f)
  pure f

/-- `pub fn f_rpc_handler(..) -> bool { .. }` -/
def handler (ret : String → TypeId) : P Handler := do
  text "pub fn"
  let f ← handlerName
  text "("
  let s ← sig
  text ") -> bool {"
  let body ← star (anyStmt (ret f))
  let r ← retE
  text "}"
  pure ⟨f, s, body, r⟩

/-- The argument struct, if the method has one, and the handler. -/
def method (ret : String → TypeId) : P MethodItem := do
  if ← next (.sym '#') then
    let d ← RustReader.decl
    let i ← RustReader.impl
    let h ← handler ret
    pure ⟨some ⟨d, i⟩, h⟩
  else
    let h ← handler ret
    pure ⟨none, h⟩

/-- `addr.sync_group_address`, ... -/
def group : P Group := do
  text "addr."
  if ← next (.word "sync_group_address") then
    the "sync_group_address"
    pure .sync
  else either "async_group_address" Group.async "read_group_address" Group.read

/-- `runtime.register_K_rpc_method(group, scope_id, RpcMethodAddress(n), f_rpc_handler,);` -/
def reg : P Reg := do
  text "runtime."
  let sync ← either "register_sync_rpc_method" true "register_async_rpc_method" false
  text "("
  let g ← group
  text ", scope_id, RpcMethodAddress("
  let n ← Combinators.num
  text "),"
  let f ← handlerName
  text ", );"
  pure ⟨sync, g, n, f⟩

/-- A string literal without escapes. -/
def literal : P String
  | .str raw :: ts => if raw.toList.all (fun c => c != '\\' && c != '\r') then some (raw, ts) else none
  | _ => none

/-- The registration function. -/
def register : P (String × List Reg) := do
  text "pub fn register_rpc(runtime: &mut TechPawsRuntime, addr: &TechPawsRpcAddress) {"
  text "let scope_id = TechPawsScopeId(uuid!("
  let scope ← literal
  text ")); runtime.memory.add_scope(scope_id);"
  let regs ← until_ (.sym '}') reg
  pure (scope, regs)

/-- The section for methods; `ret` gives the types of the results of the user's functions. -/
def readRpc (ret : String → TypeId) (s : String) : Option RpcSection := do
  let ts ← pieces s
  let ((scope, regs), ts) ← register ts
  let ms ← toEnd (method ret) ts.length ts
  pure ⟨scope, regs, ms⟩

/-- A text that can be between quotes as it is. -/
def PlainText (s : String) : Prop := ∀ c ∈ s.toList, c ≠ '"' ∧ c ≠ '\\' ∧ c ≠ '\r'

instance (s : String) : Decidable (PlainText s) := by unfold PlainText; infer_instance

end TPB.Spec.RustRpcReader

namespace TPB.Spec
open Rust

/-- The type that the method `f` is declared to return. -/
def returnTypes (S : List ASTNode) (f : String) : TypeId :=
  (((methodsOf S).find? (·.id = f)).bind (·.returnTypeId)).getD (.other "")

/-- Every name in a method can be a name in Rust: an identifier, and not a keyword. -/
def RpcWords (S : List ASTNode) : Prop := ∀ f ∈ methodsOf S,
  (∀ w ∈ f.id :: f.args.flatMap (fun a => a.id :: typeWords a.typeId), RustName w)

/-- The names of the schema can be names in Rust, and its `id` contains no quote, backslash or carriage return. -/
structure RpcReadable (S : List ASTNode) : Prop where
  types : RustNamed S
  words : RpcWords S
  scope : ∀ s, scopeOf S = some s → RustRpcReader.PlainText s

end TPB.Spec

namespace TPB.Rust

mutual
/-- A statement without empty lines: nothing if it is one. -/
def Stmt.trims : Stmt → List Stmt
  | .letArgs b s ty => [.letArgs b s ty]
  | .letBusy b s => [.letBusy b s]
  | .bufWrite b ws => [.bufWrite b ws]
  | .call res f as await => [.call res f as await]
  | .ifArgs body => [.ifArgs (trimStmts body)]
  | .ifNotBusy body => [.ifNotBusy (trimStmts body)]
  | .ifResult body => [.ifResult (trimStmts body)]
  | .cloneArgs => [.cloneArgs]
  | .spawn body => [.spawn (trimStmts body)]
  | .letMemory => [.letMemory]
  | .blank => []
def trimStmts : List Stmt → List Stmt
  | [] => []
  | s :: ss => s.trims ++ trimStmts ss
end

/-- A handler without empty lines. -/
def Handler.trim (h : Handler) : Handler := { h with body := trimStmts h.body }

def MethodItem.trim (m : MethodItem) : MethodItem := { m with handler := m.handler.trim }

def RpcSection.trim (R : RpcSection) : RpcSection := { R with methods := R.methods.map MethodItem.trim }

open Spec Spec.RustRpcReader

/-- `R` is the section for methods of the Rust text generated for `S`: the text is printed from `R`, and if the names
of the schema can be names in Rust, `R` without its empty lines is what the reader above finds in the characters of
the text. -/
def EmitsRpc (S : List ASTNode) (R : RpcSection) : Prop :=
  PrintsRpc S R ∧ (RpcReadable S → RpcNamed S → ∀ t, RustGen.rpc S = .ok t → readRpc (returnTypes S) t = some R.trim)

end TPB.Rust
