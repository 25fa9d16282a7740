/-
The emitted client and the emitted server together: they share the buffers of the runtime.
-/
import Verif.Sem.DartRpcEval
import Verif.Sem.RustRpcEval
import Verif.Spec.RpcDart
namespace TPB.Rpc
open Spec
open Rust (Buf Bufs BufLib Cfg Act Ev User Handler setMem RetIs)
open Dart (ClientState Client World Res)

/-- `loopSyncGroup` of the runtime: run the handlers at the given addresses one after the other.  The rest of
the world is the state of the user's functions and the calls made so far. -/
def loopSync {σ : Type} (C : Rust.Codec) (lib : BufLib) (U : User σ) (regs : List (Nat × Handler)) :
    List Nat → (Nat → Bufs) → σ × List (String × List Val) → Res ((Nat → Bufs) × (σ × List (String × List Val)))
  | [], mem, w => .ok (mem, w)
  | a :: as, mem, w =>
    match regs.lookup a with
    | none => .error .stuck
    | some h =>
      match Rust.runHandler C lib U h (mem a) w.1 with
      | .error _ => .error .throws
      | .ok r => loopSync C lib U regs as (setMem mem a r.bufs) (r.user, w.2 ++ r.calls)

/-- A server and a client object.  `calls` are the asynchronous calls made by the program that uses the
client: the method, its arguments and the number of the future it returned. -/
structure Sys (σ : Type) where
  server : Cfg σ
  client : ClientState
  calls : List (String × List Val × Nat)

/-- What can happen next: something on the server side, a call of an asynchronous method of the client, or
the scheduler runs a read task of the client. -/
inductive SysAct where
  | server (a : Act)
  | call (name : String) (args : List Val)
  | read (task : String)

/-- The events that the client's writes are for the server. -/
def sentEvents : List (Nat × Buf × Bytes) → List Ev
  | [] => []
  | (a, .server, bs) :: l => .requested a bs :: sentEvents l
  | (_, .client, _) :: l => sentEvents l

section
variable {σ : Type} (C : Rust.Codec) (lib : BufLib) (U : User σ) (regs : List (Nat × Handler))
variable (rt : Dart.Runtime) (P : Dart.Prog) (k : Nat) (hasData : Int) (rotate : Int → Int) (cl : Client)

/-- A server on which nothing has happened yet and a new client object. -/
def start (mem : Nat → Bufs) (u : σ) : Option (Sys σ) :=
  match Client.create rt P k hasData rotate cl lib (fun _ (_ : Unit) => .error .stuck) mem () with
  | .ok w => some ⟨Cfg.initial w.mem u, w.client, []⟩
  | .error _ => none

/-- The effect of an action; `none` if it is not possible. -/
def sysAct (s : Sys σ) : SysAct → Option (Sys σ)
  | .server a =>
    match Rust.act C lib U regs s.server a with
    | some c => some { s with server := c }
    | none => none
  | .call name ds =>
    match Dart.callMethod rt P k hasData rotate cl lib (fun _ (_ : Unit) => .error .stuck) name ds ⟨s.client, s.server.mem, [], ()⟩ with
    | .ok (.future n, w) => some
        ⟨{ s.server with mem := w.mem, log := s.server.log ++ sentEvents w.sent }, w.client, s.calls ++ [(name, ds, n)]⟩
    | _ => none
  | .read v =>
    match s.client.tasks.lookup v with
    | some t =>
      match Dart.runTask rt P k hasData cl t s.server.mem s.client with
      | .ok c => some { s with client := c }
      | .error _ => none
    | none => none

def sysActs (s : Sys σ) : List SysAct → Option (Sys σ)
  | [] => some s
  | x :: xs =>
    match sysAct C lib U regs rt P k hasData rotate cl s x with
    | some s => sysActs s xs
    | none => none

end

/-! ### Vocabulary of statements about histories -/

/-- A call of the method `name` of the client. -/
def SysAct.isCall (name : String) : SysAct → Bool
  | .call n _ => n == name
  | _ => false

/-- The call with arguments `ds` may be completed with `dv`: the user's function has been called with the
arguments that `ds` stand for and has yielded the result that `dv` stands for. -/
def CallResult (x : Ext) (W : Wire) (S : List ASTNode) (f : FnNode) (log : List Ev) (ds : List Val) (dv : Option Val) : Prop :=
  ∃ vs r v, Exchanged x W S (f.args.map (·.typeId)) vs ds ∧ Ev.finished f.position f.id vs r ∈ log ∧ RetIs r v ∧
    ExchangedResult x W S f v dv

/-- The user function's results so far are values of its type. -/
def Typed (W : Wire) (S : List ASTNode) (f : FnNode) (log : List Ev) : Prop :=
  ∀ vs r, Ev.finished f.position f.id vs r ∈ log → ∃ v b, RetIs r v ∧ ResultIs W S f v b

/-- The values of a read method's stream: the function `g` at the address `a` has yielded them, in this order. -/
def _root_.TPB.Rust.Ev.yieldOf (a : Nat) (g : String) : Ev → Option Val
  | .finished b h _ (.opt (some v)) => if b = a ∧ h = g then some v else none
  | _ => none

def _root_.TPB.Rust.yields (a : Nat) (g : String) (log : List Ev) : List Val := log.filterMap (Ev.yieldOf a g)

end TPB.Rpc
