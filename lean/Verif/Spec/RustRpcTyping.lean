/-
A type checker's view of the emitted Rust RPC section: the structs that hold arguments, the handlers and the
registration function, next to the types and codecs of the same file (`Spec/RustTyping.lean`).

Covered: resolution of names (variables hide functions, unit structs cannot be bound), types of all
expressions, what an `async move` block may capture, signatures of the user's functions and of the handlers.
Not covered: `Send` bounds of futures, and a schema that uses the name of an argument struct as a type.
-/
import Verif.Sem.RustRpc
import Verif.Spec.RustTyping
import Verif.Spec.WellFormed
import Verif.Spec.Rpc
namespace TPB.Spec
open Rust

/-- What a function returns: a value, or an `Option` of a value; `none` stands for `()`. -/
inductive FnOut where
  | val (t : Option Ty)
  | opt (t : Option Ty)

/-- The signature of one of the user's functions. -/
structure FnSig where
  args : List Ty
  out : FnOut
  isAsync : Bool

/-- What the RPC section uses from elsewhere, besides types. -/
structure Host where
  /-- the user's functions, in scope by `use` -/
  functions : String → Option FnSig
  /-- what the macro `uuid!` accepts -/
  uuid : String → Prop

/-- Types of the variables of handlers. -/
inductive VarTy where
  /-- `TechPawsScopeId` -/
  | scopeId
  /-- `RpcMethodAddress` -/
  | address
  /-- `&mut TechPawsRuntimeMemory` -/
  | memory
  /-- `unsafe fn() -> &'static mut TechPawsRuntime` -/
  | runtimeFn
  /-- `&mut TechPawsRuntimeAsyncContext` -/
  | asyncContext
  | bool
  /-- `Option<T>`, `&T` and `T` for the argument struct `T` -/
  | argsOpt (ty : String)
  | argsRef (ty : String)
  | args (ty : String)
  /-- what the user's function has returned -/
  | result (o : FnOut)
  /-- a reference into it -/
  | resultRef (t : Option Ty)
  /-- a variable that cannot be used here -/
  | gone

/-- The value can be copied. -/
def VarTy.isCopy : VarTy → Bool
  | .scopeId | .address | .runtimeFn | .bool => true
  | _ => false

/-- The value is not a reference. -/
def VarTy.isOwned : VarTy → Bool
  | .memory | .asyncContext | .argsRef _ | .resultRef _ | .gone => false
  | _ => true

abbrev Vars := List (String × VarTy)

/-- Variables for which the test fails can no longer be used. -/
def keep (p : VarTy → Bool) (Γ : Vars) : Vars := Γ.map (fun v => (v.1, if p v.2 then v.2 else .gone))

/-- What the file declares. -/
structure RpcCtx where
  crates : Crates
  host : Host
  /-- the types, and those with a codec -/
  types : List String
  codecs : List String
  /-- the argument structs with their fields -/
  args : List (String × List (String × Ty))
  /-- unit structs: their names cannot be bound -/
  units : List String
  /-- functions -/
  fns : List String

/-- The variables through which the buffers of the method are reached. -/
def ReachesBuffers (Γ : Vars) : Prop :=
  Γ.lookup "memory" = some .memory ∧ Γ.lookup "scope_id" = some .scopeId ∧ Γ.lookup "rpc_method_address" = some .address

/-- The names can be bound to variables. -/
def Bindable (X : RpcCtx) (xs : List String) : Prop := ∀ x ∈ xs, x ∉ X.units

/-- `args.f` has the type `t`. -/
def ArgField (X : RpcCtx) (Γ : Vars) (f : String) (t : Ty) : Prop :=
  ∃ ty fs, (Γ.lookup "args" = some (.args ty) ∨ Γ.lookup "args" = some (.argsRef ty)) ∧ (ty, fs) ∈ X.args ∧ (f, t) ∈ fs

/-- A statement of a closure `|bytes_writer| { .. }`. -/
def BufWTyped (X : RpcCtx) (Γ : Vars) : BufW → Prop
  | .status _ => True
  | .argI64 f => ArgField X Γ f (.named "i64") ∧ "i64" ∉ X.types
  | .resultPrim m => Γ.lookup "result" = some (.result (.val (some (.named m)))) ∧ ∃ t, Builtin X.types m t
  | .resultCall _ => ∃ t, (Γ.lookup "result" = some (.result (.val (some t))) ∨ Γ.lookup "result" = some (.resultRef (some t))) ∧
      Implements X.crates X.types X.codecs t

/-- The variables of the current block after a statement. -/
def varsAfter (X : RpcCtx) (inner outer : Vars) : Stmt → Vars
  | .letArgs _ _ ty => ("args", .argsOpt ty) :: inner
  | .letBusy _ _ => ("is_busy", .bool) :: inner
  | .call true f _ _ =>
    match X.host.functions f with
    | some s => ("result", .result s.out) :: inner
    | none => inner
  | .cloneArgs =>
    match (inner ++ outer).lookup "args" with
    | some (.argsRef ty) => ("args", .args ty) :: inner
    | _ => inner
  | .letMemory => ("memory", .memory) :: inner
  | .spawn _ => keep VarTy.isCopy inner
  | _ => inner

mutual
/-- The statement is accepted; `inner` are the variables of the block, `outer` those of the blocks around it. -/
def StmtTyped (X : RpcCtx) (inAsync : Bool) (outer inner : Vars) : Stmt → Prop
  | .letArgs _ _ ty => ReachesBuffers (inner ++ outer) ∧ ty ∈ X.args.map (·.1) ∧
      Bindable X ["bytes_reader", "status", "args"] ∧ "Some" ∉ X.units ∧ "None" ∉ X.units
  | .letBusy _ _ => ReachesBuffers (inner ++ outer) ∧ Bindable X ["bytes_reader", "status", "is_busy"]
  | .bufWrite _ ws => ReachesBuffers (inner ++ outer) ∧ Bindable X ["bytes_writer"] ∧ ∀ w ∈ ws, BufWTyped X (inner ++ outer) w
  | .call res f as aw => RustName f ∧ (inner ++ outer).lookup f = none ∧ f ∉ X.units ∧ f ∉ X.fns ∧
      (∃ s, X.host.functions f = some s ∧ s.isAsync = aw ∧ Each (ArgField X (inner ++ outer)) as s.args) ∧
      (aw = true → inAsync = true) ∧ (res = true → Bindable X ["result"])
  | .ifArgs body => ∃ ty, (inner ++ outer).lookup "args" = some (.argsOpt ty) ∧ Bindable X ["args"] ∧ "Some" ∉ X.units ∧
      BlockTyped X inAsync (inner ++ outer) [("args", .argsRef ty)] body
  | .ifNotBusy body => (inner ++ outer).lookup "is_busy" = some .bool ∧ BlockTyped X inAsync (inner ++ outer) [] body
  | .ifResult body => ∃ t, (inner ++ outer).lookup "result" = some (.result (.opt t)) ∧ Bindable X ["result"] ∧ "Some" ∉ X.units ∧
      BlockTyped X inAsync (inner ++ outer) [("result", .resultRef t)] body
  | .cloneArgs => (∃ ty, (inner ++ outer).lookup "args" = some (.argsRef ty)) ∧ Bindable X ["args"]
  | .spawn body => (inner ++ outer).lookup "async_context" = some .asyncContext ∧
      BlockTyped X true (keep VarTy.isOwned inner ++ keep VarTy.isCopy outer) [] body
  | .letMemory => (inner ++ outer).lookup "runtime_as_mut" = some .runtimeFn ∧ Bindable X ["memory"]
  | .blank => True

/-- The statements of a block are accepted. -/
def BlockTyped (X : RpcCtx) (inAsync : Bool) (outer inner : Vars) : List Stmt → Prop
  | [] => True
  | s :: ss => StmtTyped X inAsync outer inner s ∧ BlockTyped X inAsync outer (varsAfter X inner outer s) ss
end

/-- The variables after a block. -/
def varsOf (X : RpcCtx) (outer : Vars) : Vars → List Stmt → Vars
  | inner, [] => inner
  | inner, s :: ss => varsOf X outer (varsAfter X inner outer s) ss

/-- The expression that the handler returns is a `bool`. -/
def RetTyped (Γ : Vars) : RetE → Prop
  | .argsIsSome => ∃ ty, Γ.lookup "args" = some (.argsOpt ty)
  | .resultIsSome => ∃ t, Γ.lookup "result" = some (.result (.opt t))
  | .notBusy => Γ.lookup "is_busy" = some .bool

/-- The parameters of handlers. -/
def params : Sig → Vars
  | .sync => [("scope_id", .scopeId), ("memory", .memory), ("rpc_method_address", .address)]
  | .async => [("scope_id", .scopeId), ("runtime_as_mut", .runtimeFn), ("memory", .memory), ("async_context", .asyncContext),
      ("rpc_method_address", .address)]
  | .syncRead => [("scope_id", .scopeId), ("memory", .memory), ("rpc_method_address", .address)]

/-- The name of a handler. -/
def handlerName (f : String) : String := f ++ "_rpc_handler"

def HandlerTyped (X : RpcCtx) (h : Handler) : Prop :=
  RustName (handlerName h.fn) ∧ Bindable X ((params h.sig).map (·.1)) ∧ BlockTyped X false [] (params h.sig) h.body ∧
  RetTyped (varsOf X [] (params h.sig) h.body) h.ret

/-- The argument structs of the section. -/
def argsItems (R : RpcSection) : List ArgsItem := R.methods.filterMap (·.args)

def declFields : Decl → List (String × Ty)
  | .struct _ fs => fs
  | .enum _ _ => []

/-- The unit structs among them. -/
def unitArgs (R : RpcSection) : List String :=
  (argsItems R).filterMap (fun a => match a.decl with | .struct id [] => some id | _ => none)

/-- The functions of the section. -/
def sectionFns (R : RpcSection) : List String := "register_rpc" :: R.methods.map (fun m => handlerName m.handler.fn)

def rpcCtx (L : Crates) (H : Host) (items : List TypeItem) (impls : List Impl) (R : RpcSection) : RpcCtx where
  crates := L
  host := H
  types := items.map (·.decl.id)
  codecs := impls.map (·.id)
  args := (argsItems R).map (fun a => (a.decl.id, declFields a.decl))
  units := unitStructs items ++ unitArgs R
  fns := sectionFns R

/-- A line of the registration function: there is one handler of that name, and it has the signature that the
library expects. -/
def RegTyped (R : RpcSection) (r : Reg) : Prop :=
  r.addr < 2 ^ 64 ∧ ∃ m ∈ R.methods, m.handler.fn = r.fn ∧ (r.sync = true ↔ m.handler.sig = .sync)

/-- The names that the patterns of a codec bind. -/
def patternNames (m : Impl) : List String :=
  match m.write with
  | .matchSelf _ arms => arms.flatMap (fun a => a.2.2.1)
  | _ => []

/-- A file with types, codecs and an RPC section is accepted. -/
structure RustRpcTyped (L : Crates) (H : Host) (items : List TypeItem) (impls : List Impl) (R : RpcSection) : Prop where
  base : RustTyped L items impls
  patterns : ∀ m ∈ impls, ∀ x ∈ patternNames m, x ∉ unitArgs R
  /-- no two types and no two functions with one name; a unit struct is also a value -/
  argsOnce : ((argsItems R).map (·.decl.id)).Nodup
  argsFresh : ∀ a ∈ argsItems R, a.decl.id ∉ items.map (·.decl.id) ∧ a.decl.id ∉ preludeNames ++ L.others
  fnsOnce : (sectionFns R).Nodup
  fnsFresh : ∀ f ∈ sectionFns R, f ∉ unitStructs items ++ unitArgs R
  /-- the argument structs and their codecs -/
  args : ∀ a ∈ argsItems R, DeclTyped L (items.map (·.decl.id)) a.decl ∧ a.impl.id = a.decl.id ∧
    ReadBodyTyped L (items.map (·.decl.id)) (impls.map (·.id)) a.decl a.impl.read ∧
    WriteBodyTyped L (items.map (·.decl.id)) (impls.map (·.id)) (unitStructs items ++ unitArgs R) a.decl a.impl.write ∧
    SkipBodyTyped L (items.map (·.decl.id)) (impls.map (·.id)) a.impl.skip ∧
    ∀ x ∈ a.impl.read.locals ++ a.impl.write.locals ++ a.impl.skip.locals, x ∉ unitStructs items ++ unitArgs R
  handlers : ∀ m ∈ R.methods, HandlerTyped (rpcCtx L H items impls R) m.handler
  /-- the registration function -/
  register : Bindable (rpcCtx L H items impls R) ["runtime", "addr", "scope_id"]
  scope : H.uuid R.scope
  regs : ∀ r ∈ R.regs, RegTyped R r

/-! ### The schemas for which this is the case -/

/-- The type of the user's function for a method: the declared one; read methods return an `Option`. -/
def declaredSig (f : FnNode) : FnSig where
  args := f.args.map (fun a => genTy a.typeId)
  out := if f.isRead then .opt (f.returnTypeId.map genTy) else .val (f.returnTypeId.map genTy)
  isAsync := f.isAsync

/-- The user has written the functions that the schema declares. -/
def Provides (H : Host) (S : List ASTNode) : Prop := ∀ f ∈ methodsOf S, H.functions f.id = some (declaredSig f)

/-- The variables that are in scope where the user's function is called. -/
def callScope (f : FnNode) : List String :=
  ["scope_id", "memory", "rpc_method_address"] ++ (if f.isAsync then ["runtime_as_mut", "async_context"] else []) ++
  (if f.isRead then (if f.isAsync then ["is_busy"] else []) else ["args"])

/-- All names that the handler of a method, and the codec of its arguments, bind. -/
def handlerVars (f : FnNode) : List String :=
  callScope f ++ ["bytes_writer"] ++
  (if f.isRead then (if f.isAsync then ["bytes_reader", "status"] else []) else ["bytes_reader", "status"]) ++
  (if f.isRead || f.returnTypeId.isSome then ["result"] else []) ++
  (if f.isRead then [] else if f.isAsync || !f.args.isEmpty then ["count"] else [])

/-- The prelude names in the handler of a method. -/
def handlerPrelude (f : FnNode) : List String := if f.isRead then ["Some"] else ["Some", "None"]

/-- Argument structs without fields. -/
def emptyArgs (S : List ASTNode) : List String :=
  (methodsOf S).filterMap (fun f => if !f.isRead && !f.isAsync && f.args.isEmpty then some (argsName f) else none)

/-- The schemas whose Rust code, with RPC, type-checks. -/
structure RpcTypable (L : Crates) (S : List ASTNode) : Prop where
  base : RustTypable L S
  /-- variant fields are bound in patterns -/
  bound : ∀ n, .enum n ∈ S → ∀ i ∈ n.items, ∀ x ∈ boundNames i, x ∉ emptyArgs S
  methods : ((methodsOf S).map (·.id)).Nodup
  names : ∀ f ∈ methodsOf S, RustName f.id ∧ f.id ∉ callScope f ∧ f.id ∉ emptyStructs S ++ emptyArgs S ∧
    f.id ≠ "register_rpc" ∧ f.id ∉ (methodsOf S).map (fun g => handlerName g.id)
  structs : ∀ f ∈ methodsOf S, f.isRead = false → argsName f ∉ typeNames S ∧ argsName f ∉ preludeNames ++ L.others
  handlersFresh : ∀ f ∈ methodsOf S, handlerName f.id ∉ emptyStructs S
  vars : ∀ f ∈ methodsOf S, ∀ x ∈ handlerVars f ++ handlerPrelude f, x ∉ emptyStructs S
  args : ∀ f ∈ methodsOf S, (f.args.map (·.id)).Nodup ∧ ∀ a ∈ f.args, RustName a.id ∧ TypeExists L S a.typeId ∧
    ∀ b, builtin? a.typeId = some b → b ∉ typeNames S
  methodId : ∀ f ∈ methodsOf S, f.isRead = false → f.isAsync = true → "__method_id__" ∉ f.args.map (·.id) ∧ "i64" ∉ typeNames S
  results : ∀ f ∈ methodsOf S, ∀ t, f.returnTypeId = some t → TypeExists L S t ∧ ∀ b, builtin? t = some b → b ∉ typeNames S
  /-- read methods do not return built-in types -/
  reads : ∀ f ∈ methodsOf S, f.isRead = true → ∀ t, f.returnTypeId = some t → builtin? t = none
  register : ∀ x ∈ ["register_rpc", "runtime", "addr", "scope_id"], x ∉ emptyStructs S
  count : ∀ f ∈ methodsOf S, f.position < 2 ^ 64

end TPB.Spec
