/-
Specification for Dart clients whose buffers hold arbitrary bytes: a client object, the buffers, and everything
that the rest of the world may do to them.
-/
import Verif.Sem.DartRpcEval
import Verif.Spec.RpcDart
import Verif.Spec.UntrustedDart
namespace TPB.Dart
open Spec
open Rust (Buf Bufs BufLib setMem)

/-- A client object, the buffers, and the calls of its methods so far, with their arguments and what they returned. -/
structure Alone where
  client : ClientState
  mem : Nat → Bufs
  calls : List (String × List Val × DRet)

/-- What can happen next: somebody writes arbitrary bytes to a buffer, the program calls a method (and if the method
runs the synchronous group, the buffers are then `mem`, whatever that is), or the scheduler runs a read task. -/
inductive AloneAct where
  | put (addr : Nat) (b : Buf) (bs : Bytes)
  | call (name : String) (args : List Val) (mem : Nat → Bufs)
  | read (task : String)

section
variable (rt : Runtime) (P : Prog) (k : Nat) (hasData : Int) (rotate : Int → Int) (C : Client) (lib : BufLib)

/-- The effect of an action; `none` if it fails. -/
def aloneAct (s : Alone) : AloneAct → Option Alone
  | .put a b bs => some { s with mem := setMem s.mem a ((s.mem a).set b bs) }
  | .call name ds mem =>
    match callMethod rt P k hasData rotate C lib (fun _ (_ : Unit) => .ok (mem, ())) name ds ⟨s.client, s.mem, [], ()⟩ with
    | .ok (r, w) => some ⟨w.client, w.mem, s.calls ++ [(name, ds, r)]⟩
    | .error _ => none
  | .read v =>
    match s.client.tasks.lookup v with
    | some t =>
      match runTask rt P k hasData C t s.mem s.client with
      | .ok c => some { s with client := c }
      | .error _ => none
    | none => none

def aloneActs (s : Alone) : List AloneAct → Option Alone
  | [] => some s
  | a :: as =>
    match aloneAct rt P k hasData rotate C lib s a with
    | some s => aloneActs s as
    | none => none

/-- A new client object, with arbitrary contents of the buffers. -/
def aloneNew (mem : Nat → Bufs) : Option Alone :=
  match Client.create rt P k hasData rotate C lib (fun _ (_ : Unit) => .error .stuck) mem () with
  | .ok w => some ⟨w.client, w.mem, []⟩
  | .error _ => none

/-- The history `xs` of a new client object leads to `s`. -/
def AloneRun (mem : Nat → Bufs) (xs : List AloneAct) (s : Alone) : Prop :=
  ∃ s0, aloneNew rt P k hasData rotate C lib mem = some s0 ∧ aloneActs rt P k hasData rotate C lib s0 xs = some s

/-- At some moment of the history `xs` the client buffer of the address `a` began with `bs`. -/
def ClientHeld (mem : Nat → Bufs) (xs : List AloneAct) (a : Nat) (bs : Bytes) : Prop :=
  ∃ ys zs s rest, xs = ys ++ zs ∧ AloneRun rt P k hasData rotate C lib mem ys s ∧ (s.mem a).client = bs ++ rest

end

/-- The calls of the method `name`. -/
def Alone.callsOf (s : Alone) (name : String) : List (String × List Val × DRet) := s.calls.filter (fun c => c.1 = name)

/-- What a method may give to the program: nothing if it has no result, otherwise an object that stands for a value of
the declared type. -/
def DartResult (x : Ext) (D : Wire) (S : List ASTNode) (f : FnNode) : Option Val → Prop
  | none => f.returnTypeId = none
  | some d => ∃ t u, f.returnTypeId = some t ∧ HasTy D (dartSchema S) (dartView t) u ∧
      DRep x (dartSchema S) [dartView t] [u] [d]

/-- The bytes of an optional method id. -/
def DartIdBytes (D : Wire) : Option Int → Bytes → Prop
  | none, b => b = []
  | some i, b => D.prim "Int64" (.int i) = some b

/-- The bytes of the result that the object `dv` stands for. -/
def DartResultIs (x : Ext) (D : Wire) (S : List ASTNode) (f : FnNode) : Option Val → Bytes → Prop
  | none, b => f.returnTypeId = none ∧ b = []
  | some d, b => ∃ t u, f.returnTypeId = some t ∧ Enc D (dartSchema S) [dartView t] [u] b ∧
      DRep x (dartSchema S) [dartView t] [u] [d]

/-- `bs` is an answer of the method `f` as the client expects it: the status `hasData`, for an asynchronous method the
method id of a call, and the result if the method has one. -/
def DartAnswer (x : Ext) (D : Wire) (hasData : Int) (S : List ASTNode) (f : FnNode) (mid : Option Int) (dv : Option Val)
    (bs : Bytes) : Prop :=
  ∃ s m b, D.prim "Int8" (.int hasData) = some s ∧ DartIdBytes D mid m ∧ DartResultIs x D S f dv b ∧ bs = s ++ m ++ b

/-- The answers of the method `f` carry a method id. -/
def CarriesId (f : FnNode) : Bool := f.isAsync && !f.isRead

/-- The bytes in the client buffer of the method `f` cannot be understood: they do not begin with a status, or the
status announces an answer and there is none. -/
def MalformedAnswer (x : Ext) (rt : Runtime) (hasData : Int) (S : List ASTNode) (f : FnNode) (bs : Bytes) : Prop :=
  rt.readP "Int8" bs = none ∨
  ((∃ r, rt.readP "Int8" bs = some (.int hasData, r)) ∧
    ∀ mid dv a rest, mid.isSome = CarriesId f → DartAnswer x rt.wire hasData S f mid dv a → bs ≠ a ++ rest)

/-- The types of the methods are not hidden by classes of the generated file. -/
structure MethodTypesFree (S : List ASTNode) : Prop where
  args : ∀ f ∈ methodsOf S, ∀ a ∈ f.args, LibraryFree S a.typeId
  results : ∀ f ∈ methodsOf S, ∀ t, f.returnTypeId = some t → LibraryFree S t

end TPB.Dart
