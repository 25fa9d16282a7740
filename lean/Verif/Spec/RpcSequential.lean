/-
Specification for programs that make one call of a method at a time.
-/
import Verif.Sem.RpcSystem
namespace TPB.Rust
open Spec

/-- A call of a user function at the address `a`: the function and its arguments. -/
def Ev.execution (a : Nat) : Ev → Option (String × List Val)
  | .called b g vs => if b = a then some (g, vs) else none
  | _ => none

/-- The calls of user functions at the address `a`, in order. -/
def executed (a : Nat) (log : List Ev) : List (String × List Val) := log.filterMap (Ev.execution a)

/-- The end of a call of a user function at the address `a`: the function, its arguments and its result. -/
def Ev.outcome (a : Nat) : Ev → Option (String × List Val × Ret)
  | .finished b g vs r => if b = a then some (g, vs, r) else none
  | _ => none

/-- The results of the calls of user functions at the address `a`, in the order in which they were yielded. -/
def outcomes (a : Nat) (log : List Ev) : List (String × List Val × Ret) := log.filterMap (Ev.outcome a)

/-- An action of the server that carries on with the work for the requests at `a`; functions yield `r0`. -/
def Act.Works (a : Nat) (r0 : Ret) : Act → Prop
  | .poll b => b = a
  | .stepH => True
  | .endH => True
  | .stepT _ => True
  | .resume _ r => r = r0
  | .request _ _ => False
  | .clear _ _ => False

end TPB.Rust

namespace TPB.Rpc
open Spec Rust

/-- The method `name` of the client is only called when all its earlier calls have been completed. -/
def OneAtATime {σ : Type} (name : String) (run : List SysAct → Option (Sys σ)) (xs : List SysAct) : Prop :=
  ∀ ys ds zs s, xs = ys ++ SysAct.call name ds :: zs → run ys = some s →
    ∀ ds' n, (name, ds', n) ∈ s.calls → n ∈ s.client.done.map (·.1)

/-- Nothing is left to do for the server: the server buffer of `f` holds no message, no handler of `f` is running, and each
future that has been spawned for `f` has ended. -/
structure Settled {σ : Type} (read : Bytes → Option (Val × Bytes)) (f : FnNode) (c : Cfg σ) : Prop where
  buffer : NoMessage read (c.mem f.position).server
  handler : ∀ r, c.run = some r → r.addr ≠ f.position
  futures : ∀ t ∈ c.tasks, t.addr = f.position → t.thread.code = []

end TPB.Rpc
